/- Sequences of sphere tests with rounding: where the recorded distance comes from, and how far it can drift. -/
import Verif.Proofs.SphereRound
import Verif.Proofs.Tested
import Verif.Proofs.Kinds
import Verif.Proofs.Commit

set_option autoImplicit false
set_option linter.unusedSectionVars false

namespace Blazert
open Scalar

section
variable {T P I : Type} [Scalar T]

/-- a scan ends where its last successful test left the intersector -/
theorem testAll_last {ix : Intersector T P I} {ray : Ray T} (hq : Quiet ix ray) {Inv : I → Prop}
    (hinv : ∀ s q, Inv s → Inv (ix.isect s q ray).1) (vs : List P) (s : I) (hs : Inv s) :
    Inv (testAll ix ray s vs) ∧
      (testAll ix ray s vs = s ∨ ∃ q ∈ vs, ∃ s', Inv s' ∧ ix.isect s' q ray = (testAll ix ray s vs, true)) := by
  induction vs generalizing s with
  | nil => exact ⟨hs, .inl rfl⟩
  | cons q vs ih =>
    have e : testAll ix ray s (q :: vs) = testAll ix ray (ix.isect s q ray).1 vs := rfl
    rw [e]
    obtain ⟨h1, h2⟩ := ih _ (hinv s q hs)
    refine ⟨h1, ?_⟩
    rcases h2 with h2 | ⟨q', hq', s', h3, h4⟩
    · cases hb : (ix.isect s q ray).2 with
      | false => exact .inl (by rw [h2, hq.miss s q hb])
      | true => exact .inr ⟨q, by simp, s, hs, by rw [h2, ← hb]⟩
    · exact .inr ⟨q', by simp [hq'], s', h3, h4⟩

/-- the parts of the state that no sphere test changes -/
structure SphereKeeps (ray : Ray T) (s : SphereI T) : Prop where
  org : s.rayOrg = ray.origin
  dir : s.rayDir = ray.direction
  min : s.minHit = ray.minHit

theorem SphereKeeps.step {ray : Ray T} {c : SphereColl T} (s : SphereI T) (q : Sphere T) (h : SphereKeeps ray s) :
    SphereKeeps ray ((sphereIx c).isect s q ray).1 := by
  obtain ⟨h1, h2, h3⟩ := h
  simp only [sphereIx, sphereIntersect]
  split_ifs <;> exact ⟨h1, h2, h3⟩

theorem SphereKeeps.prepare (ray : Ray T) (c : SphereColl T) : SphereKeeps ray ((sphereIx c).prepare ray) := ⟨rfl, rfl, rfl⟩

theorem SphereColl.prim_eq {coll : SphereColl T} {i : Nat} {q : Sphere T} (h : coll.toCollection.prim i = .ok q) :
    coll.centers[i]? = some q.center ∧ coll.radii[i]? = some q.radius ∧ q.primId = i := by
  change (do
    let center ← lookup .oobIndex coll.centers i
    let radius ← lookup .oobIndex coll.radii i
    pure ({ center, radius, primId := i } : Sphere T)) = Except.ok q at h
  rw [run_bind_eq_ok] at h
  obtain ⟨c, hc, h⟩ := h
  rw [run_bind_eq_ok] at h
  obtain ⟨r, hr, h⟩ := h
  simp only [run_pure, Except.ok.injEq] at h
  subst h
  exact ⟨lookup_eq_ok.1 hc, lookup_eq_ok.1 hr, rfl⟩

theorem SphereColl.make_size {cs : List (Vec3 T)} {rs : List T} {coll : SphereColl T} (h : SphereColl.make cs rs = .ok coll) :
    coll.toCollection.size = cs.length ∧ coll.boxes.length = cs.length := by
  unfold SphereColl.make at h
  rw [run_bind_eq_ok] at h
  obtain ⟨bs, h1, h⟩ := h
  simp only [run_pure, Except.ok.injEq] at h
  subst h
  exact ⟨rfl, range_mapM_length h1⟩

theorem SphereColl.make_box_ok {cs : List (Vec3 T)} {rs : List T} {coll : SphereColl T} (h : SphereColl.make cs rs = .ok coll)
    {i : Nat} (hi : i < coll.toCollection.size) : ∃ b, coll.toCollection.box i = .ok b := by
  obtain ⟨h1, h2⟩ := SphereColl.make_size h
  have hi' : i < coll.boxes.length := by omega
  exact ⟨_, lookup_eq_ok.2 (List.getElem?_eq_getElem hi')⟩

theorem spherePost_ok {coll : SphereColl T} {s : SphereI T} {rayhit out : RayHit T}
    (h : (sphereIx coll).post s rayhit = .ok out) : out.primId = s.primId ∧ out.hitDistance = s.hd := by
  change spherePost coll _ _ = _ at h
  unfold spherePost at h
  rw [run_bind_eq_ok] at h
  obtain ⟨c, hc, h⟩ := h
  simp only [run_pure, Except.ok.injEq] at h
  rw [← h]
  exact ⟨rfl, rfl⟩

theorem sphere_primId {ray : Ray T} {s s' : SphereI T} {q : Sphere T} (h : sphereIntersect s q ray = (s', true)) :
    s'.primId = q.primId := by
  simp only [sphereIntersect] at h
  split_ifs at h <;> simp_all <;> rw [← h]

end

section
variable {K : Type} [Field K] [LinearOrder K] [IsStrictOrderedRing K] [FloorRing K] {F : Fmt K} {u η hi L : K}

/-- a sphere given by numbers, of which the origin `o` is not too far away -/
structure SphereWithin (o : Vec3 K) (L : K) (q : Sphere (XF F)) (c : Vec3 K) (r : K) : Prop where
  center : IsV q.center c
  radius : q.radius.Is r
  size : |o.x - c.x| + |o.y - c.y| + |o.z - c.z| + |r| ≤ L

/-- the assumptions about the ray -/
structure RayNear (ray : Ray (XF F)) (o d : Vec3 K) (m : K) (u : K) : Prop where
  org : IsV ray.origin o
  dir : IsV ray.direction d
  min : ray.minHit.Is m
  min0 : 0 ≤ m
  unit : |Vec3.dot d d - 1| ≤ 11 * u

theorem Scale.eleven (hs : Scale u η hi L) : 11 * u ≤ 1 / 4 := by
  have := hs.sizes.u1
  linarith

theorem sphere_drift (hF : F.Rounds u η hi) (hs : Scale u η hi L) {ray : Ray (XF F)} {o d : Vec3 K} {m : K}
    (hr : RayNear ray o d m u) {s s' : SphereI (XF F)} {q : Sphere (XF F)} {c : Vec3 K} {r : K} (hk : SphereKeeps ray s)
    (hq : SphereWithin o L q c r) (h : sphereIntersect s q ray = (s', true)) :
    ∃ k, s'.hd.Is k ∧ ∀ k', s.hd.Is k' → k ≤ k' + 106 * (u * L) := by
  obtain ⟨h1, h2, h3⟩ := hk
  obtain ⟨k, t, e1, e2, e3, e4, e5, e6, -⟩ := sphere_hit_near hF hs ray (h1 ▸ hr.org) (h2 ▸ hr.dir) hq.center hq.radius
    (h3 ▸ hr.min) hr.min0 hr.unit hs.eleven hq.size h
  refine ⟨k, e1, fun k' hk' => ?_⟩
  have h4 := e5 k' hk'
  have h5 := (abs_le.1 e6).2
  have u0 := hs.u_pos
  have h6 := mul_le_mul_of_nonneg_left e4 (by linarith : 0 ≤ 11 * u + 13 * u)
  have := hs.sizes.uL0
  linarith

theorem testAll_drift (hF : F.Rounds u η hi) (hs : Scale u η hi L) {ray : Ray (XF F)} {o d : Vec3 K} {m : K}
    (hr : RayNear ray o d m u) (coll : SphereColl (XF F)) (vs : List (Sphere (XF F)))
    (hvs : ∀ q ∈ vs, ∃ c r, SphereWithin o L q c r) (s : SphereI (XF F)) (hk : SphereKeeps ray s) :
    (s.hd = .inf false ∨ (∃ k, s.hd.Is k) → (testAll (sphereIx coll) ray s vs).hd = .inf false ∨
      ∃ k, (testAll (sphereIx coll) ray s vs).hd.Is k) ∧
    ∀ k, s.hd.Is k → ∃ k', (testAll (sphereIx coll) ray s vs).hd.Is k' ∧ k' ≤ k + vs.length * (106 * (u * L)) := by
  induction vs generalizing s with
  | nil => exact ⟨id, fun k hk => ⟨k, hk, by simp⟩⟩
  | cons q vs ih =>
    have e : testAll (sphereIx coll) ray s (q :: vs) = testAll (sphereIx coll) ray (sphereIntersect s q ray).1 vs := rfl
    rw [e]
    have hk' : SphereKeeps ray (sphereIntersect s q ray).1 := SphereKeeps.step (c := coll) s q hk
    obtain ⟨i1, i2⟩ := ih (fun q' hq' => hvs q' (by simp [hq'])) _ hk'
    obtain ⟨c, r, hq⟩ := hvs q (by simp)
    have hE := hs.sizes.uL0
    cases hb : (sphereIntersect s q ray).2 with
    | false =>
      have hsame : (sphereIntersect s q ray).1 = s := (sphere_quiet coll ray).miss s q hb
      rw [hsame] at i1 i2 ⊢
      refine ⟨i1, fun k hk => ?_⟩
      obtain ⟨k', h1, h2⟩ := i2 k hk
      refine ⟨k', h1, ?_⟩
      push_cast [List.length_cons]
      linarith
    | true =>
      obtain ⟨k', h1, h2⟩ := sphere_drift hF hs hr hk hq (s' := (sphereIntersect s q ray).1) (by rw [← hb])
      refine ⟨fun _ => i1 (.inr ⟨k', h1⟩), fun k hk => ?_⟩
      obtain ⟨k'', h3, h4⟩ := i2 k' h1
      refine ⟨k'', h3, ?_⟩
      have := h2 k hk
      push_cast [List.length_cons]
      linarith

/-! ### The box of a sphere that the ray enters -/

theorem sphere_box_axis (hF : F.Rounds u η hi) (hs : Scale u η hi L) {x rad : XF F} {c r a : K} (hx : x.Is c) (hr : rad.Is r)
    (hc : |c| + |r| ≤ L) (ha : |a - c| ≤ r - 2 * (u * L)) :
    ∃ mn mx, (x - rad).Is mn ∧ (x + rad).Is mx ∧ mn ≤ a ∧ a ≤ mx := by
  obtain ⟨u0, u1, η0, ηu, ηL, ηLL, ηuLL, ηuL, L0, uL0, uLL0, uL1, uLL1, hi1, hiL, hiLL⟩ := hs.sizes
  have h1 : |c - r| ≤ L := (abs_sub_le' le_rfl le_rfl).trans hc
  have h2 : |c + r| ≤ L := (abs_add_le' le_rfl le_rfl).trans hc
  obtain ⟨mn, m1, m2, -⟩ := rnd_sub hF.toGradual u0.le hx hr h1 (by linarith)
  obtain ⟨mx, m3, m4, -⟩ := rnd_add hF.toGradual u0.le hx hr h2 (by linarith)
  obtain ⟨a1, a2⟩ := abs_le.1 ha
  refine ⟨mn, mx, m1, m3, ?_, ?_⟩
  · have := (abs_le.1 m2).2; linarith
  · have := (abs_le.1 m4).1; linarith

/-- one coordinate of a point inside the sphere, along the given direction instead of the normalised one -/
theorem inside_axis (hs : Scale u η hi L) {o c p d n r τ : K} (hr : 0 < r) (hrL : r ≤ L)
    (hd : |d| ≤ 9 / 8) (hdp : |d - p / n| ≤ u * |p / n| + η) (hτ0 : 0 ≤ τ) (hτ : τ ≤ 34 / 10 * L)
    (hin : (o + τ * d - c) ^ 2 ≤ r ^ 2 - 400 * (u * L ^ 2)) :
    |(o + τ / n * p) - c| ≤ r - 2 * (u * L) := by
  obtain ⟨u0, u1, η0, ηu, ηL, ηLL, ηuLL, ηuL, L0, uL0, uLL0, uL1, uLL1, hi1, hiL, hiLL⟩ := hs.sizes
  have h1 : |p / n| ≤ 113 / 100 := by
    have h2 : |p / n - d| ≤ u * |p / n| + η := by rw [abs_sub_comm]; exact hdp
    have h3 := abs_le_of_near h2 hd
    have h4 : u * |p / n| ≤ 1 / 2 ^ 20 * |p / n| := mul_le_mul_of_nonneg_right u1 (abs_nonneg _)
    linarith
  have h2 : |d - p / n| ≤ 1131 / 1000 * u := by
    have := mul_le_mul_of_nonneg_left h1 u0.le
    linarith
  have h3 : |τ * (p / n - d)| ≤ 39 / 10 * (u * L) := by
    have hτ' : |τ| ≤ 34 / 10 * L := by rw [abs_of_nonneg hτ0]; exact hτ
    rw [abs_sub_comm] at h2
    refine (abs_mul_le hτ' h2).trans ?_
    rw [show 34 / 10 * L * (1131 / 1000 * u) = 34 * 1131 / 10000 * (u * L) by ring]
    linarith
  have hr400 : 400 * (u * L ^ 2) ≤ r ^ 2 := by
    have := pow_two_nonneg (o + τ * d - c)
    linarith
  have hr6 : 6 * (u * L) ≤ r := by
    refine le_of_sq_le_sq (le_trans ?_ hr400) hr.le
    have : u * (u * L ^ 2) ≤ 1 / 2 ^ 20 * (u * L ^ 2) := mul_le_mul_of_nonneg_right u1 uLL0.le
    have e : (6 * (u * L)) ^ 2 = 36 * (u * (u * L ^ 2)) := by ring
    rw [e]; linarith
  have h4 : |o + τ * d - c| ≤ r - 6 * (u * L) := by
    refine abs_le_of_sq_le_sq (hin.trans ?_) (by linarith)
    have e : (r - 6 * (u * L)) ^ 2 = r ^ 2 - 12 * (u * L * r) + (6 * (u * L)) ^ 2 := by ring
    have h5 : u * L * r ≤ u * L * L := mul_le_mul_of_nonneg_left hrL uL0.le
    have h6 := pow_two_nonneg (6 * (u * L))
    rw [e]
    have e2 : u * L * L = u * L ^ 2 := by ring
    linarith
  rw [show o + τ / n * p - c = (o + τ * d - c) + τ * (p / n - d) by ring]
  have := abs_add_le' h4 h3
  linarith

/-- how the parameters along the given and along the normalised direction compare -/
theorem unit_param (hs : Scale u η hi L) {S n τ : K} (hS : |S - 1| ≤ 16 * u) (hn0 : 0 < n) (hn : |n ^ 2 - S| ≤ 9 * u * S)
    (hτ0 : 0 ≤ τ) (hτ : τ ≤ 34 / 10 * L) :
    τ - 60 * (u * L) ≤ τ / n ∧ τ / n * (1 + u) ^ 3 ≤ τ + 70 * (u * L) := by
  obtain ⟨u0, u1, η0, ηu, ηL, ηLL, ηuLL, ηuL, L0, uL0, uLL0, uL1, uLL1, hi1, hiL, hiLL⟩ := hs.sizes
  obtain ⟨s1, s2⟩ := abs_le.1 hS
  obtain ⟨n1, n2⟩ := abs_le.1 hn
  have huu : u * u ≤ 1 / 2 ^ 20 * u := mul_le_mul_of_nonneg_right u1 u0.le
  have huS : u * S ≤ 101 / 100 * u := by
    rw [mul_comm]; exact mul_le_mul_of_nonneg_right (by linarith) u0.le
  have hn3 : n ≤ 1 + 13 * u := by
    refine le_of_sq_le_sq ?_ (by linarith)
    have e : (1 + 13 * u) ^ 2 = 1 + 26 * u + 169 * (u * u) := by ring
    have := mul_self_nonneg u
    rw [e]; linarith
  have hn4 : 1 - 13 * u ≤ n := by
    refine le_of_sq_le_sq ?_ hn0.le
    have e : (1 - 13 * u) ^ 2 = 1 - 26 * u + 169 * (u * u) := by ring
    rw [e]; linarith
  have hτu : τ * u ≤ 34 / 10 * (u * L) := by
    have := mul_le_mul_of_nonneg_right hτ u0.le
    linarith
  have hτu0 : 0 ≤ τ * u := mul_nonneg hτ0 u0.le
  have hτuu : τ * u * u ≤ 1 / 2 ^ 20 * (τ * u) := by
    rw [mul_comm (τ * u) u]; exact mul_le_mul_of_nonneg_right u1 hτu0
  have hq0 : 0 ≤ τ / n := div_nonneg hτ0 hn0.le
  have hq1 : τ / n ≤ τ + 14 * (τ * u) := by
    rw [div_le_iff₀ hn0]
    have h1 : (τ + 14 * (τ * u)) * (1 - 13 * u) ≤ (τ + 14 * (τ * u)) * n :=
      mul_le_mul_of_nonneg_left hn4 (by linarith)
    have e : (τ + 14 * (τ * u)) * (1 - 13 * u) = τ + τ * u - 182 * (τ * u * u) := by ring
    linarith
  have hq2 : τ - 13 * (τ * u) ≤ τ / n := by
    rw [le_div_iff₀ hn0]
    have h1 : (τ - 13 * (τ * u)) * n ≤ (τ - 13 * (τ * u)) * (1 + 13 * u) := by
      refine mul_le_mul_of_nonneg_left hn3 ?_
      have : τ * u ≤ τ * (1 / 2 ^ 20) := mul_le_mul_of_nonneg_left u1 hτ0
      linarith
    have e : (τ - 13 * (τ * u)) * (1 + 13 * u) = τ - 169 * (τ * u * u) := by ring
    have : 0 ≤ τ * u * u := mul_nonneg hτu0 u0.le
    linarith
  refine ⟨by linarith, ?_⟩
  have h3 : (1 + u) ^ 3 ≤ 1 + 4 * u := by
    have e : (1 + u) ^ 3 = 1 + 3 * u + 3 * (u * u) + u * (u * u) := by ring
    have : u * (u * u) ≤ 1 * (u * u) := mul_le_mul_of_nonneg_right (by linarith) (mul_self_nonneg u)
    rw [e]; linarith
  have h4 : τ / n * (1 + u) ^ 3 ≤ (τ + 14 * (τ * u)) * (1 + 4 * u) :=
    mul_le_mul hq1 h3 (by positivity) (by linarith)
  have e : (τ + 14 * (τ * u)) * (1 + 4 * u) = τ + 18 * (τ * u) + 56 * (τ * u * u) := by ring
  linarith

/-- the ray goes a good way from a point outside to a point inside -/
theorem entry_gap (hs : Scale u η hi L) {N b c m τ : K} (hN1 : N ≤ 5 / 4) (hN0 : 0 ≤ N) (hb : |b| ≤ 9 / 4 * L) (hm0 : 0 ≤ m)
    (hmτ : m < τ) (hτ : τ ≤ 34 / 10 * L) (hin : N * τ ^ 2 + b * τ + c ≤ -(400 * (u * L ^ 2)))
    (hout : 400 * (u * L ^ 2) ≤ N * m ^ 2 + b * m + c) : m ≤ τ - 60 * (u * L) := by
  by_contra hc
  have hc := not_le.1 hc
  have L0 := hs.pos
  have uL0 := hs.sizes.uL0
  have uLL0 := hs.sizes.uLL0
  have h1 : |N * (m + τ) + b| ≤ 11 * L := by
    have hN' : |N| ≤ 5 / 4 := by rw [abs_of_nonneg hN0]; exact hN1
    have hmt : |m + τ| ≤ 68 / 10 * L := by rw [abs_of_nonneg (by linarith)]; linarith
    have := abs_add_le' (abs_mul_le hN' hmt) hb
    linarith
  have h2 : |τ - m| ≤ 60 * (u * L) := by rw [abs_of_pos (by linarith)]; linarith
  have h3 := abs_mul_le h2 h1
  have h4 : (τ - m) * (N * (m + τ) + b) = (N * τ ^ 2 + b * τ + c) - (N * m ^ 2 + b * m + c) := by ring
  rw [h4] at h3
  have h5 := (abs_le.1 h3).1
  have e : 60 * (u * L) * (11 * L) = 660 * (u * L ^ 2) := by ring
  linarith

end
end Blazert
