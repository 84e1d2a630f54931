/- The Embree callbacks of spheres and planes. -/
import Verif.Proofs.EmbreeApi
import Verif.Proofs.Sphere
import Verif.Proofs.Plane
import Verif.Proofs.Cover

set_option autoImplicit false
set_option linter.unusedSectionVars false

namespace Blazert
open Scalar

/-! ### spheres -/

section
variable {T : Type} [Scalar T]

/-- the two candidates of the sphere test -/
def sphereRoots (org dir center : Vec3 T) (radius : T) : Option (T × T) :=
  let v := org - center
  let A := Vec3.dot dir dir
  let B := nat 2 * Vec3.dot v dir
  let C := Vec3.dot v v - radius * radius
  let D := B * B - nat 4 * A * C
  if lt D (nat 0) then none
  else some (ofRat (1/2) * (nat 1 / A) * (-B - sqrt D), ofRat (1/2) * (nat 1 / A) * (-B + sqrt D))

/-- whether `t` is within the limits -/
def RtcRay.within (r : RtcRay T) (t : T) : Bool := gt t r.tnear && lt t r.tfar

/-- recording the hit at `t` -/
def EmbSphere.hit (s : EmbSphere T) (inst : Nat) (rh : RtcRayHit T) (t : T) : RtcRayHit T :=
  rh.set (Vec3.normalize (rh.ray.org + Vec3.smul t rh.ray.dir - s.center)) 0 s.geomID inst (Vec3.norm (Vec3.smul t rh.ray.dir))

theorem EmbSphere.intersect_none {s : EmbSphere T} {inst : Nat} {rh : RtcRayHit T}
    (h : sphereRoots rh.ray.org rh.ray.dir s.center s.radius = none) : s.intersect inst rh = rh := by
  unfold sphereRoots at h
  simp only at h
  split at h
  · rename_i hc; unfold EmbSphere.intersect; simp only; rw [if_pos hc]
  · cases h

theorem EmbSphere.intersect_some {s : EmbSphere T} {inst : Nat} {rh : RtcRayHit T} {t0 t1 : T}
    (h : sphereRoots rh.ray.org rh.ray.dir s.center s.radius = some (t0, t1)) :
    s.intersect inst rh = if rh.ray.within t0 then
        if (s.hit inst rh t0).ray.within t1 then s.hit inst (s.hit inst rh t0) t1 else s.hit inst rh t0
      else if rh.ray.within t1 then s.hit inst rh t1 else rh := by
  unfold sphereRoots at h
  simp only at h
  split at h
  · cases h
  · rename_i hc
    simp only [Option.some.injEq, Prod.mk.injEq] at h
    obtain ⟨h0, h1⟩ := h
    unfold EmbSphere.intersect
    simp only
    rw [if_neg hc, h0, h1]
    unfold RtcRay.within EmbSphere.hit
    by_cases c0 : (gt t0 rh.ray.tnear && lt t0 rh.ray.tfar) = true
    · simp only [c0, if_true]; rfl
    · simp only [c0]; rfl

theorem sphereIntersect_none {i : SphereI T} {s : Sphere T} {ray : Ray T}
    (h : sphereRoots i.rayOrg i.rayDir s.center s.radius = none) : sphereIntersect i s ray = (i, false) := by
  unfold sphereRoots at h
  simp only at h
  split at h
  · rename_i hc; unfold sphereIntersect; simp only; rw [if_pos hc]
  · cases h

theorem sphereIntersect_some {i : SphereI T} {s : Sphere T} {ray : Ray T} {t0 t1 : T}
    (h : sphereRoots i.rayOrg i.rayDir s.center s.radius = some (t0, t1)) :
    sphereIntersect i s ray = if gt t0 i.minHit && lt t0 i.hd then
        ({ i with hd := Vec3.norm (Vec3.smul t0 i.rayDir), primId := s.primId }, true)
      else if gt t1 i.minHit && lt t1 i.hd then ({ i with hd := Vec3.norm (Vec3.smul t1 i.rayDir), primId := s.primId }, true)
      else (i, false) := by
  unfold sphereRoots at h
  simp only at h
  split at h
  · cases h
  · rename_i hc
    simp only [Option.some.injEq, Prod.mk.injEq] at h
    obtain ⟨h0, h1⟩ := h
    unfold sphereIntersect
    simp only
    rw [if_neg hc, h0, h1]

theorem EmbSphere.occluded_none {s : EmbSphere T} {inf : T} {ray : RtcRay T}
    (h : sphereRoots ray.org ray.dir s.center s.radius = none) : s.occluded inf ray = ray := by
  unfold sphereRoots at h
  simp only at h
  split at h
  · rename_i hc; unfold EmbSphere.occluded; simp only; rw [if_pos hc]
  · cases h

theorem EmbSphere.occluded_some {s : EmbSphere T} {inf : T} {ray : RtcRay T} {t0 t1 : T}
    (h : sphereRoots ray.org ray.dir s.center s.radius = some (t0, t1)) :
    s.occluded inf ray = if ray.within t0 then
        if lt ray.tnear t0 && lt t1 (-inf) then (ray.block inf).block inf else ray.block inf
      else if lt ray.tnear t0 && lt t1 ray.tfar then ray.block inf else ray := by
  unfold sphereRoots at h
  simp only at h
  split at h
  · cases h
  · rename_i hc
    simp only [Option.some.injEq, Prod.mk.injEq] at h
    obtain ⟨h0, h1⟩ := h
    unfold EmbSphere.occluded
    simp only
    rw [if_neg hc, h0, h1]
    unfold RtcRay.within
    by_cases c0 : (gt t0 ray.tnear && lt t0 ray.tfar) = true
    · have c0' : (lt ray.tnear t0 && lt t0 ray.tfar) = true := c0
      simp only [c0, c0', if_true]; rfl
    · have c0' : ¬ (lt ray.tnear t0 && lt t0 ray.tfar) = true := c0
      simp only [c0, c0']; rfl

theorem EmbSphere.hit_records (s : EmbSphere T) (inst : Nat) (rh : RtcRayHit T) (t : T) :
    Records rh (s.hit inst rh t) s.geomID (Vec3.norm (Vec3.smul t rh.ray.dir))
      (Vec3.normalize (rh.ray.org + Vec3.smul t rh.ray.dir - s.center)) := ⟨rfl, rfl, rfl, rfl⟩

end

section
variable {F : Fmt ℝ}

theorem XF.Is.above_iff {x : XF F} {a t : ℝ} (h : x.Is a) : x.Above t ↔ t < a := by
  constructor
  · rintro (rfl | ⟨b, hb, hlt⟩)
    · obtain ⟨s, h⟩ := h; cases h
    · rwa [h.unique hb]
  · exact fun hlt => .inr ⟨a, h, hlt⟩

theorem RtcRay.For.within {r : RtcRay (XF F)} {o u : Vec3 ℝ} {m M : ℝ} (h : r.For o u m M) {x : XF F} {t : ℝ} (hx : x.Is t) :
    r.within x = true ↔ m < t ∧ t < M := by
  rw [RtcRay.within, Bool.and_eq_true, hx.gt h.near, hx.lt h.far]

/-- the candidates, in exact arithmetic -/
theorem sphereRoots_cases (hF : F.Exact) {org dir center : Vec3 (XF F)} {radius : XF F} {o u c : Vec3 ℝ} {r : ℝ} (ho : IsV org o)
    (hdir : IsV dir u) (hc : IsV center c) (hr : radius.Is r) (hr0 : 0 ≤ r) (hd : sq u = 1) :
    (sphereRoots org dir center radius = none ∧ ∀ t, ¬ OnSphere c r (along o u t)) ∨
    ∃ T0 T1 t0 t1, sphereRoots org dir center radius = some (T0, T1) ∧ T0.Is t0 ∧ T1.Is t1 ∧ t0 ≤ t1 ∧
      (∀ t, OnSphere c r (along o u t) ↔ t = t0 ∨ t = t1) ∧
      ∀ t, sq (along o u t - c) - r * r = (t - t0) * (t - t1) := by
  have hv := ho.sub hF hc
  have hA := hdir.dot hF hdir
  have hB := (XF.Is.nat hF 2).mul hF (hv.dot hF hdir)
  have hC := (hv.dot hF hv).sub hF (hr.mul hF hr)
  have hD := (hB.mul hF hB).sub hF (((XF.Is.nat hF 4).mul hF hA).mul hF hC)
  have hA1 : Vec3.dot u u = 1 := hd
  simp only [onSphere_iff hr0, hd]
  unfold sphereRoots
  simp only
  set A := Vec3.dot dir dir
  set B := (nat 2 : XF F) * Vec3.dot (org - center) dir
  set C := Vec3.dot (org - center) (org - center) - radius * radius
  set b : ℝ := 2 * Vec3.dot (o - c) u with hb
  set cc : ℝ := sq (o - c) - r * r with hcc
  have hB : B.Is b := by simpa using hB
  have hD : (B * B - nat 4 * A * C).Is (b * b - 4 * cc) := by
    rw [hA1] at hD; simpa [hb, hcc, sq] using hD
  by_cases hneg : b * b - 4 * cc < 0
  · rw [if_pos ((hD.lt (XF.Is.zero hF)).2 hneg)]
    refine .inl ⟨rfl, fun t h => ?_⟩
    nlinarith [mul_self_nonneg (2 * t + b)]
  · rw [if_neg (fun h => hneg ((hD.lt (XF.Is.zero hF)).1 h))]
    rw [not_lt] at hneg
    have hQ := hD.sqrt hF hneg
    set q := Real.sqrt (b * b - 4 * cc) with hq
    have hqq : q * q = b * b - 4 * cc := Real.mul_self_sqrt hneg
    have hq0 : 0 ≤ q := Real.sqrt_nonneg _
    have hrcp := (XF.Is.one hF).div hF hA (by rw [hA1]; exact one_ne_zero)
    rw [hA1, div_one] at hrcp
    have h0 := ((XF.Is.ofRat hF (1/2)).mul hF hrcp).mul hF (hB.neg.sub hF hQ)
    have h1 := ((XF.Is.ofRat hF (1/2)).mul hF hrcp).mul hF (hB.neg.add hF hQ)
    have root : ∀ t, t * t * 1 + t * b + cc = (t - (-b - q) / 2) * (t - (-b + q) / 2) := by
      intro t; linear_combination hqq / 4
    refine .inr ⟨_, _, (-b - q) / 2, (-b + q) / 2, rfl, ?_, ?_, by linarith, fun t => ?_, fun t => ?_⟩
    · convert h0 using 1; push_cast; ring
    · convert h1 using 1; push_cast; ring
    · rw [root, mul_eq_zero, sub_eq_zero, sub_eq_zero]
    · rw [← root, hcc, hb]
      have hd' := hd
      unfold sq along Vec3.dot at *
      simp only [Vec3.add_x, Vec3.add_y, Vec3.add_z, Vec3.sub_x, Vec3.sub_y, Vec3.sub_z, Vec3.smul_x, Vec3.smul_y, Vec3.smul_z]
      linear_combination (t * t) * hd'

/-- the normal recorded for a hit at `t` -/
theorem EmbSphere.hit_normal (hF : F.Exact) {s : EmbSphere (XF F)} {rh : RtcRayHit (XF F)} {c o u : Vec3 ℝ} {r m M t : ℝ} {x : XF F}
    (hs : s.For c r) (hr : rh.ray.For o u m M) (hx : x.Is t) (hon : OnSphere c r (along o u t)) (hr0 : 0 < r) :
    ∃ n, IsV (Vec3.normalize (rh.ray.org + Vec3.smul x rh.ray.dir - s.center)) n ∧ len n = 1 ∧ along o u t = c + Vec3.smul r n := by
  have hp : dist3 (along o u t) c = r := hon
  have hne : along o u t - c ≠ ⟨0, 0, 0⟩ := by
    rw [Vec3.sub_ne_zero]
    intro h
    rw [h, dist3, show c - c = (⟨0, 0, 0⟩ : Vec3 ℝ) by ext <;> simp] at hp
    rw [len, sq_eq_zero.2 rfl, Real.sqrt_zero] at hp
    exact hr0.ne hp
  have hn := ((hr.org.add hF (IsV.smul hF hx hr.dir)).sub hF hs.center).normalize hF hne
  refine ⟨_, hn, len_divs_len hne, ?_⟩
  have hl : len (o + Vec3.smul t u - c) = r := hp
  rw [hl]
  unfold along
  ext <;> simp <;> field_simp <;> ring

/-- Everything about one call of the sphere callback. -/
theorem EmbSphere.intersect_cases (hF : F.Exact) {s : EmbSphere (XF F)} (inst : Nat) {rh : RtcRayHit (XF F)} {c o u : Vec3 ℝ}
    {r m M : ℝ} (hs : s.For c r) (hr : rh.ray.For o u m M) (ray : Ray (XF F)) :
    (s.intersect inst rh = rh ∧ (sphereIntersect rh.ray.sphereI s.native ray).2 = false ∧
      ∀ t, m < t → t < M → ¬ OnSphere c r (along o u t)) ∨
    ∃ t x n, x.Is t ∧ m < t ∧ t < M ∧ OnSphere c r (along o u t) ∧ (∀ t', m < t' → OnSphere c r (along o u t') → t ≤ t') ∧
      Records rh (s.intersect inst rh) s.geomID x n ∧
      (sphereIntersect rh.ray.sphereI s.native ray).2 = true ∧ (sphereIntersect rh.ray.sphereI s.native ray).1.hd = x ∧
      (0 < r → ∃ n', IsV n n' ∧ len n' = 1 ∧ along o u t = c + Vec3.smul r n') := by
  rcases sphereRoots_cases hF hr.org hr.dir hs.center hs.radius hs.nonneg hr.unit with ⟨hn, h⟩ | ⟨T0, T1, t0, t1, hsome, h0, h1, h01, hiff, _⟩
  · refine .inl ⟨EmbSphere.intersect_none hn, by rw [sphereIntersect_none]; exact hn, fun t _ _ => h t⟩
  · rw [EmbSphere.intersect_some hsome]
    rw [sphereIntersect_some (i := rh.ray.sphereI) (s := s.native) (ray := ray) hsome]
    have hnorm : ∀ X t, X.Is t → m < t → (Vec3.norm (Vec3.smul X rh.ray.dir)).Is t := fun X t hX ht => by
      have := IsV.norm hF (IsV.smul hF hX hr.dir)
      rwa [len_smul_unit hr.unit (hr.nonneg.trans ht.le)] at this
    simp only [hiff]
    have e : ∀ X, (gt X rh.ray.sphereI.minHit && lt X rh.ray.sphereI.hd) = rh.ray.within X := fun X => rfl
    rw [e, e]
    by_cases c0 : rh.ray.within T0 = true
    · rw [if_pos c0, if_pos c0]
      obtain ⟨c1, c2⟩ := (hr.within h0).1 c0
      have hray : (s.hit inst rh T0).ray.For o u m t0 := ⟨hr.org, hr.dir, hr.near, hnorm _ _ h0 c1, hr.unit, hr.nonneg⟩
      rw [if_neg (fun h => by linarith [((hray.within h1).1 h).2])]
      refine .inr ⟨t0, _, _, hnorm _ _ h0 c1, c1, c2, .inl rfl, ?_, s.hit_records inst rh T0, rfl, rfl,
        EmbSphere.hit_normal hF hs hr h0 ((hiff t0).2 (.inl rfl))⟩
      rintro t' _ (rfl | rfl)
      · exact le_refl _
      · exact h01
    · rw [if_neg c0, if_neg c0]
      have c0' := mt (hr.within h0).2 c0
      by_cases c1 : rh.ray.within T1 = true
      · rw [if_pos c1, if_pos c1]
        obtain ⟨d1, d2⟩ := (hr.within h1).1 c1
        refine .inr ⟨t1, _, _, hnorm _ _ h1 d1, d1, d2, .inr rfl, ?_, s.hit_records inst rh T1, rfl, rfl,
          EmbSphere.hit_normal hF hs hr h1 ((hiff t1).2 (.inr rfl))⟩
        rintro t' hm (rfl | rfl)
        · exact absurd ⟨hm, by linarith⟩ c0'
        · exact le_refl _
      · rw [if_neg c1, if_neg c1]
        refine .inl ⟨rfl, rfl, ?_⟩
        rintro t hm hM (rfl | rfl)
        · exact c0' ⟨hm, hM⟩
        · exact c1 ((hr.within h1).2 ⟨hm, hM⟩)

/-- Everything about one call of the occlusion callback: only the first point counts. -/
theorem EmbSphere.occluded_cases (hF : F.Exact) {s : EmbSphere (XF F)} {ray : RtcRay (XF F)} {c o u : Vec3 ℝ} {r m M : ℝ}
    (hs : s.For c r) (hr : ray.For o u m M) :
    (s.occluded (.inf false) ray = ray ∧ ∀ t, OnSphere c r (along o u t) → m < t → t < M →
      ∃ t', t' ≤ m ∧ OnSphere c r (along o u t')) ∨
    (s.occluded (.inf false) ray = ray.block (.inf false) ∧ ∃ t, m < t ∧ t < M ∧ OnSphere c r (along o u t) ∧
      ∀ t', OnSphere c r (along o u t') → t ≤ t') := by
  rcases sphereRoots_cases hF hr.org hr.dir hs.center hs.radius hs.nonneg hr.unit with ⟨hn, h⟩ | ⟨T0, T1, t0, t1, hsome, h0, h1, h01, hiff, _⟩
  · exact .inl ⟨EmbSphere.occluded_none hn, fun t ht => absurd ht (h t)⟩
  · rw [EmbSphere.occluded_some hsome]
    have hinf : lt T1 (-(.inf false : XF F)) = false := by
      obtain ⟨b, rfl⟩ := h1; rfl
    rw [hinf, Bool.and_false]
    simp only [hiff]
    by_cases c0 : ray.within T0 = true
    · rw [if_pos c0]
      obtain ⟨c1, c2⟩ := (hr.within h0).1 c0
      refine .inr ⟨by simp, t0, c1, c2, .inl rfl, ?_⟩
      rintro t' (rfl | rfl)
      · exact le_refl _
      · exact h01
    · rw [if_neg c0]
      have c0' := mt (hr.within h0).2 c0
      have hn : (lt ray.tnear T0 && lt T1 ray.tfar) = false := by
        rw [Bool.eq_false_iff, ne_eq, Bool.and_eq_true, hr.near.lt h0, h1.lt hr.far]
        exact fun ⟨d1, d2⟩ => c0' ⟨d1, by linarith⟩
      rw [hn]
      refine .inl ⟨by simp, fun t ht hm hM => ⟨t0, ?_, .inl rfl⟩⟩
      rcases ht with rfl | rfl
      · exact absurd ⟨hm, hM⟩ c0'
      · by_contra hc
        exact c0' ⟨by linarith, by linarith⟩

end

/-! ### planes -/

section
variable {T : Type} [Scalar T]

/-- the callback does what the native test does -/
structure PlaneAgree (rh : RtcRayHit T) (g : Nat) (i : PlaneI T) (a : PlaneI T × Bool) (b : RtcRayHit T) : Prop where
  miss : a.2 = false → b = rh ∧ a.1 = i
  hit : a.2 = true → ∃ n, Records rh b g a.1.hd n ∧ (n = a.1.normal ∨ n = Vec3.divs a.1.normal (Vec3.norm a.1.normal))

theorem PlaneAgree.ite {rh : RtcRayHit T} {g : Nat} {i : PlaneI T} {c : Bool} {a a' : PlaneI T × Bool} {b b' : RtcRayHit T}
    (h : PlaneAgree rh g i a b) (h' : PlaneAgree rh g i a' b') :
    PlaneAgree rh g i (if c then a else a') (if c then b else b') := by cases c <;> assumption

theorem PlaneAgree.edge (p : EmbPlane T) (inst : Nat) (rh : RtcRayHit T) (i : PlaneI T) (n : Vec3 T) (t : T) (dir : Vec3 T) (k : Nat) :
    PlaneAgree rh p.geomID i (i.record (p.rot.mulVec n) t dir k) (p.setEdge inst rh n (Vec3.norm (Vec3.smul t dir))) :=
  ⟨fun h => (by cases h), fun _ => ⟨_, ⟨rfl, rfl, rfl, rfl⟩, .inr rfl⟩⟩

theorem EmbPlane.agree (p : EmbPlane T) (inst : Nat) (rh : RtcRayHit T) (ray : Ray T) :
    PlaneAgree rh p.geomID rh.ray.planeI (planeIntersect rh.ray.planeI p.native ray) (p.intersect inst rh) := by
  unfold EmbPlane.intersect planeIntersect
  refine .ite ⟨fun h => (by cases h), fun _ => ⟨_, ⟨rfl, rfl, rfl, rfl⟩, .inl rfl⟩⟩ ?_
  iterate 8 refine .ite (.edge ..) ?_
  exact ⟨fun _ => ⟨rfl, rfl⟩, fun h => (by cases h)⟩

/-- in the interior of the rectangle the normal is the one of the native test -/
theorem EmbPlane.interior (p : EmbPlane T) (inst : Nat) (rh : RtcRayHit T) (ray : Ray T) :
    let inv := p.rot.trans
    let org := inv.mulVec (rh.ray.org - p.center)
    let dir := inv.mulVec rh.ray.dir
    let t1 := -org.z / dir.z
    let q := org + Vec3.smul t1 dir
    (gt t1 rh.ray.tnear && lt t1 rh.ray.tfar && gt q.x (-p.d1 / nat 2) && lt q.x (p.d1 / nat 2) && gt q.y (-p.d2 / nat 2) &&
      lt q.y (p.d2 / nat 2)) = true →
    (p.intersect inst rh).hit.ng = (planeIntersect rh.ray.planeI p.native ray).1.normal := by
  intro inv org dir t1 q h
  have h1 : p.intersect inst rh = rh.set (Vec3.smul (org.z / abs org.z) (p.rot.mulVec ⟨nat 0, nat 0, nat 1⟩)) 0 p.geomID inst
      (Vec3.norm (Vec3.smul t1 dir)) := if_pos h
  have h2 : planeIntersect rh.ray.planeI p.native ray =
      rh.ray.planeI.record (Vec3.smul (org.z / abs org.z) (p.rot.mulVec ⟨nat 0, nat 0, nat 1⟩)) t1 dir 0 := if_pos h
  rw [h1, h2]; rfl

end

section
variable {K : Type} [Field K] [LinearOrder K] [FloorRing K] {F : Fmt K}

theorem xf_le_eq (x y : XF F) : le x y = (lt x y || eq x y) := by
  change XF.le x y = (XF.lt x y || XF.eq x y)
  cases x with
  | nan => cases y <;> rfl
  | inf s => cases y with
    | nan => rfl
    | inf t => cases s <;> cases t <;> rfl
    | fin w t => cases s <;> rfl
  | fin v s => cases y with
    | nan => rfl
    | inf t => cases t <;> rfl
    | fin w t => simp [XF.le, XF.lt, XF.eq, le_iff_lt_or_eq]

theorem xf_lt_of_eq_left {x y z : XF F} (h : eq x y = true) (h' : lt y z = true) : lt x z = true := by
  change XF.eq x y = true at h
  change XF.lt y z = true at h'
  change XF.lt x z = true
  cases x <;> cases y <;> cases z <;> simp_all [XF.lt, XF.eq]

theorem xf_lt_of_eq_right {x y z : XF F} (h : eq x y = true) (h' : lt z y = true) : lt z x = true := by
  change XF.eq x y = true at h
  change XF.lt z y = true at h'
  change XF.lt z x = true
  cases x <;> cases y <;> cases z <;> simp_all [XF.lt, XF.eq]

/-- between two bounds: inside, or on exactly one of them -/
theorem xf_between (x lo hi : XF F) (h : lt lo hi = true) :
    (ge x lo && le x hi) = (gt x lo && lt x hi || eq x lo && lt x hi || gt x lo && eq x hi) := by
  have e1 : ge x lo = (gt x lo || eq x lo) := by
    have : ge x lo = (lt lo x || eq lo x) := xf_le_eq lo x
    rw [this]
    congr 1
    change XF.eq lo x = XF.eq x lo
    cases x <;> cases lo <;> simp [XF.eq, eq_comm]
  rw [e1, xf_le_eq]
  cases h1 : gt x lo <;> cases h2 : eq x lo <;> cases h3 : lt x hi <;> cases h4 : eq x hi <;> simp
  rw [xf_lt_of_eq_left h2 h] at h3; cases h3

/-- Whether the plane callback reports a hit, and whether the occlusion callback does, in any arithmetic. -/
theorem EmbPlane.occluded_agree (p : EmbPlane (XF F)) (inst : Nat) (inf : XF F) (rh : RtcRayHit (XF F))
    (hx : lt (-p.d1 / nat 2) (p.d1 / nat 2) = true) (hy : lt (-p.d2 / nat 2) (p.d2 / nat 2) = true) :
    (p.intersect inst rh = rh ∧ p.occluded inf rh.ray = rh.ray) ∨
    (∃ t n, Records rh (p.intersect inst rh) p.geomID t n) ∧ p.occluded inf rh.ray = rh.ray.block inf := by
  unfold EmbPlane.intersect EmbPlane.occluded
  extract_lets inv org dir t1 q tnear tfar xmin xmax ymin ymax s d
  have bx := xf_between q.x xmin xmax hx
  have bY := xf_between q.y ymin ymax hy
  have ec : (gt t1 tnear && lt t1 tfar && ge q.x xmin && le q.x xmax && ge q.y ymin && le q.y ymax) =
      (gt t1 tnear && lt t1 tfar && (ge q.x xmin && le q.x xmax) && (ge q.y ymin && le q.y ymax)) := by
    simp only [Bool.and_assoc]
  rw [ec, bx, bY]
  have hset : ∀ n t, ∃ t' n', Records rh (p.setEdge inst rh n t) p.geomID t' n' := fun n t => ⟨_, _, rfl, rfl, rfl, rfl⟩
  have hset' : ∀ n t, ∃ t' n', Records rh (rh.set n 0 p.geomID inst t) p.geomID t' n' := fun n t => ⟨_, _, rfl, rfl, rfl, rfl⟩
  generalize gt t1 tnear = a1, lt t1 tfar = a2, gt q.x xmin = a3, lt q.x xmax = a4, eq q.x xmin = a5, eq q.x xmax = a6,
    gt q.y ymin = b3, lt q.y ymax = b4, eq q.y ymin = b5, eq q.y ymax = b6
  cases a1
  · simp
  cases a2
  · simp
  rcases a3 with _ | _ <;> rcases a4 with _ | _ <;> rcases a5 with _ | _ <;> rcases a6 with _ | _ <;>
    simp only [Bool.and_false, Bool.false_and, Bool.and_true, Bool.true_and, Bool.or_false, Bool.false_or, Bool.or_true,
      Bool.false_eq_true, if_false, true_or, and_self] <;>
    rcases b3 with _ | _ <;> rcases b4 with _ | _ <;> rcases b5 with _ | _ <;> rcases b6 with _ | _ <;>
    simp only [Bool.and_false, Bool.false_and, Bool.and_true, Bool.or_false, Bool.false_or, Bool.or_true,
      Bool.false_eq_true, if_false, if_true, true_or, and_self, and_true, hset, hset', or_true]

end

section
variable {F : Fmt ℝ}

/-- Everything about one call of the plane callback in exact arithmetic. -/
theorem EmbPlane.intersect_cases (hF : F.Exact) {p : EmbPlane (XF F)} (inst : Nat) {rh : RtcRayHit (XF F)} {c o u : Vec3 ℝ}
    {dx dy m M : ℝ} {R : Mat3 ℝ} (hp : p.For c dx dy R) (hr : rh.ray.For o u m M) :
    (p.intersect inst rh = rh ∧ (Vec3.dot (perp R) u ≠ 0 → ∀ t, m < t → t < M → ¬ InRect c dx dy R (along o u t))) ∨
    (Vec3.dot (perp R) u ≠ 0 ∧ ∃ t x n, x.Is t ∧ m < t ∧ t < M ∧ InRect c dx dy R (along o u t) ∧
      Records rh (p.intersect inst rh) p.geomID x n) := by
  have hag := p.agree inst rh (Ray.make' rh.ray.org rh.ray.dir)
  have hnat : p.native.For c dx dy R := ⟨hp.center, hp.d1, hp.d2, hp.rot⟩
  have hi : rh.ray.planeI.For o u m := ⟨hr.org, hr.dir, hr.near⟩
  have hab : ∀ t, rh.ray.planeI.hd.Above t ↔ t < M := fun t => XF.Is.above_iff (x := rh.ray.tfar) hr.far
  rcases planeIntersect_cases hF rh.ray.planeI p.native (Ray.make' rh.ray.org rh.ray.dir) c o u dx dy m R hnat hp.dx_pos hp.dy_pos
    hp.orth hi hr.unit hr.nonneg with ⟨he, h⟩ | ⟨hz, t, x, y, h1, h2, h3, h4, h5, h6, h7, n, hd', h8, he, h9⟩
  · rw [he] at hag
    rw [trans_mulVec_z] at h
    exact .inl ⟨(hag.miss rfl).1, fun hz t hm hM => h hz t hm ((hab t).2 hM)⟩
  · rw [he] at hag
    obtain ⟨n', hrec, _⟩ := hag.hit rfl
    rw [trans_mulVec_z] at hz
    exact .inr ⟨hz, t, hd', n', h8, h1, (hab t).1 h2, ⟨x, y, h4, h5, h6, h7, h3⟩, hrec⟩

theorem rect_unique {c o u : Vec3 ℝ} {dx dy t t' : ℝ} {R : Mat3 ℝ} (hR : Orthonormal R) (hz : Vec3.dot (perp R) u ≠ 0)
    (h : InRect c dx dy R (along o u t)) (h' : InRect c dx dy R (along o u t')) : t = t' := by
  have key : ∀ t, InRect c dx dy R (along o u t) → (R.trans.mulVec (o - c)).z + t * (R.trans.mulVec u).z = 0 := by
    rintro t ⟨x, y, _, _, _, _, h3⟩
    have h5 := congrArg Vec3.z ((hR.local_iff c _ _).1 h3)
    rw [trans_along] at h5
    simpa only [along, Vec3.add_z, Vec3.smul_z] using h5
  rw [← trans_mulVec_z] at hz
  have := key t h
  have := key t' h'
  exact mul_right_cancel₀ hz (by linarith)

end
end Blazert
