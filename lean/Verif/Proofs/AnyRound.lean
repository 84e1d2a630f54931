/- Successful tests record bounded distances, with rounding. -/
import Verif.Proofs.AnyTests
import Verif.Proofs.SphereScan
import Verif.Proofs.PlaneFound
import Verif.Proofs.TriScan
import Verif.Proofs.Kinds
import Verif.Proofs.Combine
import Verif.Proofs.Limits
import Verif.Proofs.SceneBuild
import Verif.Spec.AnyRound

set_option autoImplicit false

namespace Blazert
open Scalar

section
variable {K : Type} [Field K] [LinearOrder K] [IsStrictOrderedRing K] [FloorRing K] {F : Fmt K} {u η hi lo lo' L : K}

theorem Exceeds.lt {x y : XF F} {B h : K} (hx : Exceeds x B) (hy : y.Is h) (hB : h ≤ B) : lt y x = true := by
  rcases hx with rfl | ⟨X, hX, hlt⟩
  · exact (XF.Is.lt_iff hy).2 (.inl rfl)
  · exact (XF.Is.lt hy hX).2 (by linarith)

/-- the distance recorded for a triangle, times the determinant -/
theorem tri_hit_bounded (hF : F.Rounds u η hi) (hF' : F.Relative u lo' hi) (hs : Scale3 u η hi lo L) {i : TriI (XF F)}
    {tri : Triangle (XF F)} {ray : Ray (XF F)} {A B C o d : Vec3 K} {m : K} (ht : TriWithin o L tri A B C)
    (ho : IsV ray.origin o) (hd : IsV ray.direction d) (hD : Vec3.dot d d ≤ 5 / 4) (hm : i.minHit.Is m) (hm0 : 0 ≤ m)
    (hmL : 2 * L ^ 2 * m ≤ hi) (h : (triIntersect i tri ray).2 = true)
    {ℓ : K} (hℓ : lo ≤ ℓ)
    (hdet : ∀ D, (Vec3.dot (Vec3.cross tri.c tri.b) ray.direction).Is D → D = 0 ∨ ℓ ≤ |D|) :
    ∃ h, (triIntersect i tri ray).1.hd.Is h ∧ 0 ≤ h ∧ h * ℓ ≤ 2 * L ^ 3 := by
  obtain ⟨u0, u1, η0, ηu, ηL, ηLL, ηuLL, ηuL, L0, uL0, uLL0, uL1, uLL1, hi1, hiL, hiLL⟩ := hs.toScale.sizes
  obtain ⟨uL3, ηL3, uL31, L3⟩ := hs.sizes3
  obtain ⟨D, U, V, T, n1, hn, ⟨-, h0⟩ | ⟨w, s, x, y, hr⟩⟩ := tri_run hF hF' hs ht ho hd hD hm
  · rw [h0] at h; cases h
  obtain ⟨s1, s2, s3⟩ := hr.abs_sign
  obtain ⟨⟨c1, c2, c3⟩, c4, c5⟩ := hr.accept.1 h
  have hlo' : ℓ ≤ |D| := (hdet D n1).resolve_left (abs_pos.1 s3)
  have hlo := hℓ.trans hlo'
  have bD : |D| ≤ 1126 / 1000 * L ^ 2 := (abs_le_of_near hn.det hn.d0).trans (by linarith)
  have bT : s * T ≤ 1001 / 1000 * L ^ 3 := by
    refine (le_abs_self _).trans ?_
    rw [abs_mul, s1, one_mul]
    exact (abs_le_of_near hn.dist hn.t0).trans (by linarith)
  have hDm : |D| * m ≤ hi := by
    have := mul_le_mul_of_nonneg_right bD hm0
    have e : 1126 / 1000 * L ^ 2 * m = 563 / 1000 * (2 * L ^ 2 * m) := by ring
    have h2 : 0 ≤ 2 * L ^ 2 * m := by positivity
    linarith
  obtain ⟨q, q1, -, q2, -⟩ := grad_mul hF.toGradual hr.size hm (by rw [abs_of_nonneg (by positivity)]; exact hDm)
  have hT0 : 0 ≤ s * T := (q2 (by positivity)).trans ((hr.dist.ge q1).1 c4)
  obtain ⟨h', k1, k2, k3⟩ := tri_quotient hF hs hr.dist hr.size hT0 bT hlo bD
  rw [← (hr.result h).1] at k1
  have hηD : η * |D| ≤ 1 / 1000 * (u * L ^ 3) := by
    have h1 : η * |D| ≤ (u ^ 2 * L) * (1126 / 1000 * L ^ 2) := mul_le_mul ηuL bD (abs_nonneg _) (by positivity)
    have e : u ^ 2 * L * (1126 / 1000 * L ^ 2) = 1126 / 1000 * (u * (u * L ^ 3)) := by ring
    have h2 : u * (u * L ^ 3) ≤ 1 / 2 ^ 20 * (u * L ^ 3) := mul_le_mul_of_nonneg_right u1 uL3.le
    linarith
  have huT : u * (s * T) ≤ 1001 / 1000 * (u * L ^ 3) := by
    have := mul_le_mul_of_nonneg_left bT u0.le
    linarith
  refine ⟨h', k1, k2, ?_⟩
  have a1 : h' * ℓ ≤ h' * |D| := mul_le_mul_of_nonneg_left hlo' k2
  have a2 := (abs_le.1 k3).2
  have a3 : u * L ^ 3 ≤ 1 / 2 ^ 20 * L ^ 3 := mul_le_mul_of_nonneg_right u1 (by positivity)
  have a4 : 0 < L ^ 3 := by positivity
  linarith

theorem sphere_hit_bounded (hF : F.Rounds u η hi) (hs : Scale u η hi L) {i : SphereI (XF F)} {q : Sphere (XF F)}
    (ray : Ray (XF F)) {o d c : Vec3 K} {r m : K} (ho : IsV i.rayOrg o) (hd : IsV i.rayDir d) (hc : IsV q.center c)
    (hr : q.radius.Is r) (hm : i.minHit.Is m) (hm0 : 0 ≤ m) (hN : |Vec3.dot d d - 1| ≤ 11 * u)
    (hL : |o.x - c.x| + |o.y - c.y| + |o.z - c.z| + |r| ≤ L) (h : (sphereIntersect i q ray).2 = true) :
    ∃ h, (sphereIntersect i q ray).1.hd.Is h ∧ 0 ≤ h ∧ h ≤ 4 * L := by
  obtain ⟨u0, u1, η0, ηu, ηL, ηLL, ηuLL, ηuL, L0, uL0, uLL0, uL1, uLL1, hi1, hiL, hiLL⟩ := hs.sizes
  obtain ⟨k, t, a1, a2, a0, a3, -, a4, -⟩ := sphere_hit_near hF hs ray ho hd hc hr hm hm0 hN hs.eleven hL
    (i' := (sphereIntersect i q ray).1) (Prod.ext rfl h)
  refine ⟨k, a1, a2, ?_⟩
  have b1 : u * t ≤ 1 / 2 ^ 20 * (38 / 10 * L) := mul_le_mul u1 a3 (by linarith) (by norm_num)
  have b2 := (abs_le.1 a4).2
  have e : (11 * u + 13 * u) * t = 24 * (u * t) := by ring
  rw [e] at b2
  have b3 : u * L ≤ 1 / 2 ^ 20 * L := mul_le_mul_of_nonneg_right u1 L0.le
  linarith

theorem plane_hit_bounded (hF : F.Rounds u η hi) (hfa : F.Faithful u η) (hodd : F.Odd) (hs : Scale u η hi L)
    {i : PlaneI (XF F)} {q : Plane (XF F)} (ray : Ray (XF F)) {o d c : Vec3 K} {a b m ε : K} {R : Mat3 K}
    (ho : IsV i.rayOrg o) (hd : IsV i.rayDir d) (hq : PlaneWithin ε o L q c a b R) (hε : ε ≤ 1 / 1000)
    (hm : i.minHit.Is m) (hm0 : 0 ≤ m) (hN : |Vec3.dot d d - 1| ≤ 11 * u) (h : (planeIntersect i q ray).2 = true) :
    ∃ h, (planeIntersect i q ray).1.hd.Is h ∧ 0 ≤ h ∧ h ≤ 4 * L := by
  obtain ⟨u0, u1, η0, ηu, ηL, ηLL, ηuLL, ηuL, L0, uL0, uLL0, uL1, uLL1, hi1, hiL, hiLL⟩ := hs.sizes
  obtain ⟨k, t, a1, a2, a0, a3, -, a4, -⟩ := plane_hit_near hF hfa hodd hs ray ho hd hq hε hm hm0 hN
    (i' := (planeIntersect i q ray).1) (Prod.ext rfl h)
  refine ⟨k, a1, a2, ?_⟩
  have b2 := (abs_le.1 a4).2
  have b3 : u * L ≤ 1 / 2 ^ 20 * L := mul_le_mul_of_nonneg_right u1 L0.le
  have b4 : ε * L ≤ 1 / 1000 * L := mul_le_mul_of_nonneg_right hε L0.le
  linarith

/-! ### Both kinds of query -/

variable {P I : Type}

/-- what a successful query reports, if every success records a distance that is at most `B` -/
theorem traverse_bounded {ix : Intersector (XF F) P I} {ray : Ray (XF F)} {part : StdPartition} {p : Collection (XF F) P}
    {opts : BuildOptions} {nodes : List (Node (XF F) P)} {stats : Statistics}
    (hbuild : build part p opts [] = .ok (nodes, stats)) (hq : Quiet ix ray) {Inv : I → Prop} (h0 : Inv (ix.prepare ray))
    (hkeep : ∀ s q, Inv s → Inv (ix.isect s q ray).1) {B : K}
    (hacc : ∀ s i q, i < p.size → p.prim i = .ok q → Inv s → (ix.isect s q ray).2 = true →
      ∃ h, (ix.hitDistance (ix.isect s q ray).1).Is h ∧ h ≤ B)
    (hpost : ∀ s rh rh', ix.post s rh = .ok rh' → rh'.hitDistance = ix.hitDistance s)
    {rayhit out : RayHit (XF F)} (h : traverse ix nodes ray rayhit = .ok (true, out)) :
    ∃ h, out.hitDistance.Is h ∧ h ≤ B := by
  obtain ⟨ps, vs, rest, e1, e2, e3, e4, -⟩ := traverse_tests hbuild hq h
  rw [hpost _ _ _ (e4 rfl)]
  obtain ⟨-, f2⟩ := testAll_last hq hkeep vs _ h0
  rw [← scan_eq_testAll] at f2
  rcases f2 with f2 | ⟨q, hq', s', f3, f4⟩
  · rw [scanHit, f2, hq.start, XF.lt_irrefl] at e3
    cases e3
  · obtain ⟨i, hi', hiq⟩ := mapM_mem_of_out e1 (e2.subset (List.mem_append_left _ hq'))
    have := hacc s' i q (List.mem_range.1 hi') hiq f3 (by rw [f4])
    rwa [f4] at this

/-- With and without `any_hit` the geometry `p` answers alike, with distances of at most `B`. -/
structure PartSame {C : Type} (ix : C → Intersector (XF F) P I) (ray ray' : Ray (XF F)) (p : Option (Part C (XF F) P)) (B : K) : Prop where
  same : PartDefined ix ray p → PartDefined ix ray' p → ((∃ r, PartAnswers ix ray p r) ↔ ∃ r, PartAnswers ix ray' p r)
  bound : ∀ r, PartAnswers ix ray p r ∨ PartAnswers ix ray' p r → ∃ h, r.hitDistance.Is h ∧ h ≤ B

/-- a geometry all of whose successes record distances of at most `B`, less than the upper limit of the ray -/
theorem PartSame.of_accept {C : Type} {ix : C → Intersector (XF F) P I} {tc : C → Collection (XF F) P} {ray ray' : Ray (XF F)}
    (hany : ray.anyHit = false) (hray : ray' = { ray with anyHit := true }) {p : Option (Part C (XF F) P)} {o : BuildOptions}
    (hf : PartFirst tc o true p) (hq : ∀ c, Quiet (ix c) ray) (hq' : ∀ c, Quiet (ix c) ray')
    (hix : ∀ c s q, (ix c).isect s q ray' = (ix c).isect s q ray) (hprep : ∀ c, (ix c).prepare ray' = (ix c).prepare ray)
    (hpost : ∀ c s rh rh', (ix c).post s rh = .ok rh' → rh'.hitDistance = (ix c).hitDistance s)
    {Inv : C → I → Prop} (h0 : ∀ c, Inv c ((ix c).prepare ray)) (hkeep : ∀ c s q, Inv c s → Inv c ((ix c).isect s q ray).1)
    {B : K} (hB : Exceeds ray.maxHit B)
    (hacc : ∀ x, p = some x → ∀ s i q, (tc x.coll).prim i = .ok q → Inv x.coll s → ((ix x.coll).isect s q ray).2 = true →
      ∃ h, ((ix x.coll).hitDistance ((ix x.coll).isect s q ray).1).Is h ∧ h ≤ B) : PartSame ix ray ray' p B := by
  cases p with
  | none =>
    refine ⟨fun _ _ => ⟨?_, ?_⟩, ?_⟩
    · rintro ⟨r, q, r', h, -⟩; cases h
    · rintro ⟨r, q, r', h, -⟩; cases h
    · rintro r (⟨q, r', h, -⟩ | ⟨q, r', h, -⟩) <;> cases h
  | some x =>
    obtain ⟨part, nodes, stats, hbuild, htr⟩ := hf.query (I := I)
    have hacc := hacc x rfl
    refine ⟨fun hd hd' => ?_, ?_⟩
    · obtain ⟨⟨hit, r⟩, hr⟩ := hd x rfl
      obtain ⟨⟨hit', r'⟩, hr'⟩ := hd' x rfl
      have e : hit = hit' := by
        rw [htr] at hr hr'
        refine traverse_same_answer hbuild hany (hq _) hray (hix _) (hprep _) (h0 _) (hkeep _) (fun s i q _ hi hs ha => ?_) hr hr'
        obtain ⟨h, h1, h2⟩ := hacc s i q hi hs ha
        exact hB.lt h1 h2
      subst e
      constructor
      · rintro ⟨-, q, r2, h1, h2, -⟩
        obtain rfl := Option.some.inj h1
        rw [hr, Except.ok.injEq, Prod.mk.injEq] at h2
        exact ⟨_, x, r', rfl, by rw [hr', h2.1], rfl⟩
      · rintro ⟨-, q, r2, h1, h2, -⟩
        obtain rfl := Option.some.inj h1
        rw [hr', Except.ok.injEq, Prod.mk.injEq] at h2
        exact ⟨_, x, r, rfl, by rw [hr, h2.1], rfl⟩
    · rintro r (⟨q, r2, h1, h2, rfl⟩ | ⟨q, r2, h1, h2, rfl⟩)
      · obtain rfl := Option.some.inj h1
        rw [htr] at h2
        exact traverse_bounded (out := r2) hbuild (hq _) (h0 _) (hkeep _) (fun s i q _ => hacc s i q) (hpost _) h2
      · obtain rfl := Option.some.inj h1
        rw [htr] at h2
        refine traverse_bounded (out := r2) hbuild (hq' _) (Inv := Inv x.coll) (by rw [hprep]; exact h0 _)
          (fun s q hs => by rw [hix]; exact hkeep _ s q hs) (fun s i q _ hi hs ha => ?_) (hpost _) h2
        rw [hix] at ha ⊢
        exact hacc s i q hi hs ha

/-- Scenes whose geometries all answer alike -/
theorem scene_same {s : Scene (XF F)} {ray ray' : Ray (XF F)} {B : K} (h1 : PartSame triIx ray ray' s.mesh B)
    (h2 : PartSame sphereIx ray ray' s.spheres B) (h3 : PartSame (fun _ => planeIx) ray ray' s.planes B)
    (h4 : PartSame (fun _ => cylIx) ray ray' s.cylinders B) {rh0 rh1 out out' : RayHit (XF F)} {hit hit' : Bool}
    (hB : Exceeds rh0.hitDistance B) (hB' : Exceeds rh1.hitDistance B)
    (h : s.intersect1 ray rh0 = .ok (hit, out)) (h' : s.intersect1 ray' rh1 = .ok (hit', out')) : hit = hit' := by
  have hl := XF.lawfulLt F
  obtain ⟨d1, d2, d3, d4⟩ := (intersect1_defined s ray rh0).1 ⟨_, h⟩
  obtain ⟨d1', d2', d3', d4'⟩ := (intersect1_defined s ray' rh1).1 ⟨_, h'⟩
  have hs1 := h1.same d1 d1'
  have hs2 := h2.same d2 d2'
  have hs3 := h3.same d3 d3'
  have hs4 := h4.same d4 d4'
  have key : ∀ {ray : Ray (XF F)} {rh0 out : RayHit (XF F)} {hit : Bool}, Exceeds rh0.hitDistance B →
      s.intersect1 ray rh0 = .ok (hit, out) → (∀ r, s.Answers ray r → ∃ h, r.hitDistance.Is h ∧ h ≤ B) →
      (hit = true ↔ ∃ r, s.Answers ray r) := by
    intro ray rh0 out hit hB h hbound
    obtain ⟨temp, k⟩ := intersect1_sofar hl h
    constructor
    · exact fun e => ⟨_, k.hit e⟩
    · rintro ⟨r, hr⟩
      obtain ⟨x, hx, hle⟩ := hbound r hr
      cases hit with
      | true => rfl
      | false =>
        have e' := k.miss rfl
        simp only at e'
        have := k.best r hr
        rw [e', hB.lt hx hle] at this
        cases this
  have b1 : ∀ r, s.Answers ray r → ∃ h, r.hitDistance.Is h ∧ h ≤ B := by
    rintro r (hr | hr | hr | hr)
    · exact h1.bound r (.inl hr)
    · exact h2.bound r (.inl hr)
    · exact h3.bound r (.inl hr)
    · exact h4.bound r (.inl hr)
  have b2 : ∀ r, s.Answers ray' r → ∃ h, r.hitDistance.Is h ∧ h ≤ B := by
    rintro r (hr | hr | hr | hr)
    · exact h1.bound r (.inr hr)
    · exact h2.bound r (.inr hr)
    · exact h3.bound r (.inr hr)
    · exact h4.bound r (.inr hr)
  have hiff : (∃ r, s.Answers ray r) ↔ ∃ r, s.Answers ray' r := by
    unfold Scene.Answers
    simp only [exists_or]
    rw [hs1, hs2, hs3, hs4]
  rw [Bool.eq_iff_iff, key hB h b1, key hB' h' b2, hiff]

end
end Blazert
