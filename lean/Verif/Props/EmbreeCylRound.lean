/- C103, C104: cylinders of Embree scenes with rounding. -/
import Verif.Proofs.EmbreeCylRound
import Verif.Props.CylRound
import Verif.Props.EmbreeRound

set_option autoImplicit false

namespace Blazert
open Scalar

section
variable {K : Type} [Field K] [LinearOrder K] [IsStrictOrderedRing K] [FloorRing K] {F : Fmt K}

/-- **C103**, general.  In any format that rounds monotonically, and whose finite results are accurate, for an Embree scene in any state
that calls of the API lead to, and whatever Embree does with meshes (as long as it does not change the ray) and whichever callbacks it
leaves out: if a query reports a hit, it is on one of the attached geometries, and if this is the elliptic cylinder, the point at the reported
distance is on its surface, up to rounding, between the ends of the tube or on a cap, and not behind the origin.  (The two slips in the code,
recording `t1` for the other root, and `-h/20` in place of `-h/2`, are in a branch for which the roots would have to be in
the wrong order, which they are not, rounding included.) -/
theorem C103_hits_on_cylinder (u η hi lo up μ : K) (hF : F.Rounds u η hi) (hfa : F.Faithful u η) (hodd : F.Odd) (hord : F.Ordered)
    (hmono : F.Monotone) (lo0 : 0 < lo) (htubes : ∀ L, lo ≤ L → L ≤ up → TubeScale u η hi L lo μ)
    {l : Layout} {calls : List (EmbCall (XF F))} {s : EmbScene (XF F)} (hrun : embRun l .init calls = .ok s)
    {rtc : Rtc (XF F)} (htidy : rtc.Tidy) (origin direction : Vec3 (XF F)) (minHit maxHit : XF F) {any : Bool} (o p : Vec3 K)
    (ho : IsV origin o) (hdir : IsV direction p) (hscale : Scale u η hi (|p.x| + |p.y| + |p.z|)) (rayhit out : RayHit (XF F))
    (h : s.Intersect1 rtc (Ray.make origin direction minHit maxHit any) rayhit (.ok (true, out))) :
    ∃ i d, IsV (Ray.make origin direction minHit maxHit any).direction d ∧ |Vec3.dot d d - 1| ≤ 11 * u ∧
      ((∃ g, s.HasUser i g ∧ out.primId = 0 ∧
          ∀ q, g = .cylinder q → q.HitNear u lo up μ out.hitDistance (Ray.make origin direction minHit maxHit any).direction o d) ∨
        ∃ v f, s.HasMesh i v f) := by
  obtain ⟨d, n, g1, g2, -⟩ := C68_direction _ _ _ hF origin direction minHit maxHit any p hdir hscale
  obtain ⟨i, ⟨g, rh, t, n, hg, hl, hne, hrec, e1, e2, e3⟩ | ⟨v, f, hv⟩⟩ := intersect1_source hrun htidy h
  swap
  · exact ⟨i, d, g1, g2, .inr ⟨v, f, hv⟩⟩
  refine ⟨i, d, g1, g2, .inl ⟨g, hg, e3, ?_⟩⟩
  rintro q rfl c a b h R ε L hc ha hb hh hR hε hε' haν hbν h0 hL hL2 asp1 asp2 hsl hcl
  rw [e1]
  have o0 : 0 ≤ |o.x - c.x| + |o.y - c.y| + |o.z - c.z| := by positivity
  exact EmbCyl.near hF hfa hodd hord hmono (by rw [hl.org]; exact ho) (by rw [hl.dir]; exact g1) g2
    ⟨hc, ha, hb, hh, hR, hε, haν, hbν, h0, hL, htubes L (by linarith) hL2, by linarith, by linarith, by rw [hl.dir]; exact hsl,
      hcl.imp (fun hx => le_trans (le_of_eq (by ring)) hx) (fun hx => lt_of_le_of_lt (le_of_eq (by ring)) hx)⟩ hε' hne hrec

/-- **C104**, general.  For such queries the normal that is reported with a hit on a cylinder has the length 1 up to `120 u + 4 ε`, and is the
outward normal of the cap or of the tube, whichever the point is on, up to rounding.  (In the native back-end it may be a normal that has not
been turned, C39 and C92.) -/
theorem C104_embree_cylinder_normal (u η hi lo up μ : K) (hF : F.Rounds u η hi) (hfa : F.Faithful u η) (hodd : F.Odd) (hord : F.Ordered)
    (hmono : F.Monotone) (lo0 : 0 < lo) (htubes : ∀ L, lo ≤ L → L ≤ up → TubeScale u η hi L lo μ) (hs0 : Scale u η hi 1) (hs1 : Scale u η hi (1 / 2))
    (hs2 : Scale u η hi 8) (hinv : ∀ L, lo ≤ L → L ≤ up → Scale u η hi (1 / L))
    (hgrad : ∀ L m, lo ≤ m → m ≤ L → L ≤ up → Scale u η hi (8 * L / m ^ 2))
    {l : Layout} {calls : List (EmbCall (XF F))} {s : EmbScene (XF F)} (hrun : embRun l .init calls = .ok s)
    {rtc : Rtc (XF F)} (htidy : rtc.Tidy) (origin direction : Vec3 (XF F)) (minHit maxHit : XF F) {any : Bool} (o p : Vec3 K)
    (ho : IsV origin o) (hdir : IsV direction p) (hscale : Scale u η hi (|p.x| + |p.y| + |p.z|)) (rayhit out : RayHit (XF F))
    (h : s.Intersect1 rtc (Ray.make origin direction minHit maxHit any) rayhit (.ok (true, out))) :
    ∃ i d, IsV (Ray.make origin direction minHit maxHit any).direction d ∧ |Vec3.dot d d - 1| ≤ 11 * u ∧
      ((∃ g, s.HasUser i g ∧ out.primId = 0 ∧ ∀ q, g = .cylinder q →
          q.ShadeNear u lo up μ out.hitDistance out.normal (Ray.make origin direction minHit maxHit any).direction o d) ∨
        ∃ v f, s.HasMesh i v f) := by
  obtain ⟨d, n, g1, g2, -⟩ := C68_direction _ _ _ hF origin direction minHit maxHit any p hdir hscale
  obtain ⟨i, ⟨g, rh, t, n, hg, hl, hne, hrec, e1, e2, e3⟩ | ⟨v, f, hv⟩⟩ := intersect1_source hrun htidy h
  swap
  · exact ⟨i, d, g1, g2, .inr ⟨v, f, hv⟩⟩
  refine ⟨i, d, g1, g2, .inl ⟨g, hg, e3, ?_⟩⟩
  rintro q rfl c a b h R ε L m hc ha hb hh hR hε hε' hm ma mb h0 hL hL2 hsm hsl hcl
  rw [e1, e2]
  have u0 := hs1.u_pos
  have ε0 := hε.rows.nonneg
  have o0 : 0 ≤ |o.x - c.x| + |o.y - c.y| + |o.z - c.z| := by positivity
  have m0 := lo0.trans_le hm
  have hasp : ∀ x y : K, 0 < x → x ≤ L → m ≤ y → 1000 * (u * x ^ 2) ≤ y ^ 2 := by
    intro x y x0 hx hy
    have i1 : x ^ 2 ≤ L ^ 2 := pow_le_pow_left₀ x0.le hx 2
    have i2 : m ^ 2 ≤ y ^ 2 := pow_le_pow_left₀ m0.le hy 2
    have i3 : 1000 * u * x ^ 2 ≤ (3000 * u + 200 * ε) * L ^ 2 := mul_le_mul (by linarith) i1 (by positivity) (by positivity)
    linarith
  exact EmbCyl.shade hF hfa hodd hord hmono (by rw [hl.org]; exact ho) (by rw [hl.dir]; exact g1) g2
    ⟨hc, ha, hb, hh, hR, hε, hm.trans ma, hm.trans mb, h0, hL, htubes L (by linarith) hL2, hasp a b (by linarith) (by linarith) mb,
      hasp b a (by linarith) (by linarith) ma, by rw [hl.dir]; exact hsl,
      hcl.imp (fun hx => le_trans (le_of_eq (by ring)) hx) (fun hx => lt_of_le_of_lt (le_of_eq (by ring)) hx)⟩ hε' hs0 hs1 hs2 m0 ma mb
    (hinv L (by linarith) hL2) (hgrad L m hm (by linarith) hL2) hsm hne hrec

end

/-- **C103** for `float`, the type of the Embree back-end: half axes from `2^-10`, sizes up to `2^10`. -/
theorem C103_float {l : Layout} {calls : List (EmbCall Single)} {s : EmbScene Single} (hrun : embRun l .init calls = .ok s)
    {rtc : Rtc Single} (htidy : rtc.Tidy) (origin direction : Vec3 Single) (minHit maxHit : Single) {any : Bool} (o p : Vec3 ℚ)
    (ho : IsV origin o) (hdir : IsV direction p) (hp1 : 1 / 2 ^ 51 ≤ |p.x| + |p.y| + |p.z|) (hp2 : |p.x| + |p.y| + |p.z| ≤ 2 ^ 60)
    (rayhit out : RayHit Single) (h : s.Intersect1 rtc (Ray.make origin direction minHit maxHit any) rayhit (.ok (true, out))) :
    ∃ i d, IsV (Ray.make origin direction minHit maxHit any).direction d ∧ |Vec3.dot d d - 1| ≤ 11 * (1 / 2 ^ 24) ∧
      ((∃ g, s.HasUser i g ∧ out.primId = 0 ∧ ∀ q, g = .cylinder q → q.HitNear (1 / 2 ^ 24) (1 / 2 ^ 10) (2 ^ 10) (1 / 2 ^ 20)
          out.hitDistance (Ray.make origin direction minHit maxHit any).direction o d) ∨ ∃ v f, s.HasMesh i v f) :=
  C103_hits_on_cylinder _ _ _ _ _ _ rounds_float faithful_float Format.binary32_odd Format.binary32_ordered Format.binary32_monotone
    (by decide +kernel) (fun _ => tubeScale_float) hrun htidy origin direction minHit maxHit o p ho hdir (scale_float hp1 hp2) rayhit out h

/-- **C104** for `float`. -/
theorem C104_float {l : Layout} {calls : List (EmbCall Single)} {s : EmbScene Single} (hrun : embRun l .init calls = .ok s)
    {rtc : Rtc Single} (htidy : rtc.Tidy) (origin direction : Vec3 Single) (minHit maxHit : Single) {any : Bool} (o p : Vec3 ℚ)
    (ho : IsV origin o) (hdir : IsV direction p) (hp1 : 1 / 2 ^ 51 ≤ |p.x| + |p.y| + |p.z|) (hp2 : |p.x| + |p.y| + |p.z| ≤ 2 ^ 60)
    (rayhit out : RayHit Single) (h : s.Intersect1 rtc (Ray.make origin direction minHit maxHit any) rayhit (.ok (true, out))) :
    ∃ i d, IsV (Ray.make origin direction minHit maxHit any).direction d ∧ |Vec3.dot d d - 1| ≤ 11 * (1 / 2 ^ 24) ∧
      ((∃ g, s.HasUser i g ∧ out.primId = 0 ∧ ∀ q, g = .cylinder q → q.ShadeNear (1 / 2 ^ 24) (1 / 2 ^ 10) (2 ^ 10) (1 / 2 ^ 20)
          out.hitDistance out.normal (Ray.make origin direction minHit maxHit any).direction o d) ∨ ∃ v f, s.HasMesh i v f) := by
  have lo0 : (0 : ℚ) < 1 / 2 ^ 10 := by decide +kernel
  refine C104_embree_cylinder_normal _ _ _ _ _ _ rounds_float faithful_float Format.binary32_odd Format.binary32_ordered
    Format.binary32_monotone lo0 (fun _ => tubeScale_float) (scale_float (by decide +kernel) (by decide +kernel))
    (scale_float (by decide +kernel) (by decide +kernel)) (scale_float (by decide +kernel) (by decide +kernel)) (fun L h1 h2 => ?_)
    (fun L m h1 h2 h3 => ?_) hrun htidy origin direction minHit maxHit o p ho hdir (scale_float hp1 hp2) rayhit out h
  · have L0 : 0 < L := lo0.trans_le h1
    refine scale_float (le_trans ?_ (one_div_le_one_div_of_le L0 h2)) ((one_div_le_one_div_of_le lo0 h1).trans ?_) <;> decide +kernel
  · have m0 : 0 < m := lo0.trans_le h1
    have L0 : 0 < L := m0.trans_le h2
    have mm : (0 : ℚ) < m ^ 2 := by positivity
    have i1 : m ^ 2 ≤ (2 ^ 10) ^ 2 := pow_le_pow_left₀ m0.le (h2.trans h3) 2
    have i2 : (1 / 2 ^ 10) ^ 2 ≤ m ^ 2 := pow_le_pow_left₀ lo0.le h1 2
    refine scale_float ?_ ?_
    · rw [le_div_iff₀ mm]
      have e1 : (1 / 2 ^ 51 * (2 ^ 10) ^ 2 : ℚ) ≤ 8 * (1 / 2 ^ 10) := by decide +kernel
      have := mul_le_mul_of_nonneg_left i1 (show (0 : ℚ) ≤ 1 / 2 ^ 51 by decide +kernel)
      linarith only [e1, this, h1, h2]
    · rw [div_le_iff₀ mm]
      have e1 : (8 * 2 ^ 10 : ℚ) ≤ 2 ^ 60 * (1 / 2 ^ 10) ^ 2 := by decide +kernel
      have := mul_le_mul_of_nonneg_left i2 (show (0 : ℚ) ≤ 2 ^ 60 by norm_num)
      linarith only [e1, this, h3]

/-! ### Example -/

/-- whether a computed direction is slanted -/
def slantedS (μ : ℚ) (v : Vec3 Single) : Bool :=
  match v.x, v.y, v.z with
  | .fin x _, .fin y _, .fin z _ => decide (Slanted μ ⟨x, y, z⟩)
  | _, _, _ => false

theorem slanted_of_evalS {μ : ℚ} {v : Vec3 Single} (h : slantedS μ v = true) : ∀ e, IsV v e → Slanted μ e := by
  intro e he
  obtain ⟨x, y, z⟩ := v
  obtain ⟨⟨sx, hx⟩, ⟨sy, hy⟩, ⟨sz, hz⟩⟩ := he
  simp only at hx hy hz
  subst hx hy hz
  exact of_decide_eq_true h

def tiltS : Mat3 Single := ⟨svec (3/5) 0 (4/5), svec 0 1 0, svec (-4/5) 0 (3/5)⟩

/-- in numbers -/
def tiltSQ : Mat3 ℚ := ⟨⟨10066330 / 2 ^ 24, 0, 13421773 / 2 ^ 24⟩, ⟨0, 1, 0⟩, ⟨-(13421773 / 2 ^ 24), 0, 10066330 / 2 ^ 24⟩⟩

/-- a ray that crosses a tilted elliptic cylinder -/
def tubeRayS : Ray Single := Ray.make (svec (-5) (1/8) (1/4)) (svec 1 (1/32) (1/16)) (sgl 0) (sgl 100) false

/-- what the callback makes of it -/
def tubeRecordS : RtcRayHit Single := (EmbCyl.mk (svec 0 0 0) (sgl 1) (sgl 2) (sgl 3) tiltS 0).intersect invalidId tubeRayS.toRtc

/-- A cylinder with half axes 1 and 2 and height 3, tilted, is hit by a slanted ray on its tube: there is such a query, in any Embree, and the
reported point is on the surface and the reported normal is the one there, up to rounding. -/
example (rtc : Rtc Single) (htidy : rtc.Tidy) (l : Layout) (rayhit : RayHit Single) :
    ∃ s out, embRun l .init [.addCylinders [svec 0 0 0] [sgl 1] [sgl 2] [sgl 3] [tiltS], .commit] = .ok s ∧
      s.Intersect1 rtc tubeRayS rayhit (.ok (true, out)) ∧
      ∃ d k n, IsV tubeRayS.direction d ∧ out.hitDistance.Is k ∧ 0 ≤ k ∧ IsV out.normal n ∧ |Vec3.dot n n - 1| ≤ 1 / 10 ^ 5 ∧
        NearSide 1 2 3 (1 / 25) (1 / 2000) (tiltSQ.trans.mulVec (along ⟨-5, 1/8, 1/4⟩ d k - ⟨0, 0, 0⟩)) ∧
        NearDir (1 / 20) n (tiltSQ.mulVec (tubeGrad 1 2 (tiltSQ.trans.mulVec (along ⟨-5, 1/8, 1/4⟩ d k - ⟨0, 0, 0⟩)))) := by
  have dv : ∀ x y z x' y' z' : ℚ, ∀ sx sy sz, svec x y z = ⟨.fin x' sx, .fin y' sy, .fin z' sz⟩ →
      IsV (svec x y z) ⟨x', y', z'⟩ := by
    intro x y z x' y' z' sx sy sz e
    rw [e]
    exact ⟨⟨_, rfl⟩, ⟨_, rfl⟩, ⟨_, rfl⟩⟩
  have hg : tubeRecordS.hit.geomID ≠ invalidId := by decide +kernel
  have hc : tubeRecordS.copyTo rayhit = (true, { rayhit with
      primId := tubeRecordS.hit.primID, uv := (tubeRecordS.hit.u, tubeRecordS.hit.v), hitDistance := tubeRecordS.ray.tfar,
      normal := tubeRecordS.hit.ng }) := by unfold RtcRayHit.copyTo; rw [if_pos hg]
  obtain ⟨s, hs, hatt, hheap, hquery⟩ : ∃ s : EmbScene Single,
      embRun l .init [.addCylinders [svec 0 0 0] [sgl 1] [sgl 2] [sgl 3] [tiltS], .commit] = .ok s ∧ s.attached = [.user 0] ∧
      s.heap = [some (.cylinder ⟨svec 0 0 0, sgl 1, sgl 2, sgl 3, tiltS, 0⟩)] ∧
      s.Intersect1 rtc tubeRayS rayhit (.ok (true, (tubeRecordS.copyTo rayhit).2)) := by
    refine ⟨_, rfl, rfl, rfl, ⟨[0], .ok tubeRecordS, .refl _, .call rfl (.done _), ?_⟩⟩
    show Except.ok _ = Except.ok (tubeRecordS.copyTo rayhit)
    rw [hc]
  refine ⟨s, _, hs, hquery, ?_⟩
  obtain ⟨i, d, hd, -, ⟨g, ⟨p, hp, hp'⟩, -, hn⟩ | ⟨v, f, hv⟩⟩ := C104_float hs htidy (svec (-5) (1/8) (1/4)) (svec 1 (1/32) (1/16)) (sgl 0) (sgl 100)
    ⟨-5, 1/8, 1/4⟩ ⟨1, 1/32, 1/16⟩ (dv _ _ _ _ _ _ true false false (by decide +kernel)) (dv _ _ _ _ _ _ false false false (by decide +kernel))
    (by decide +kernel) (by decide +kernel) rayhit _ hquery
  swap
  · rw [EmbScene.HasMesh, hatt] at hv
    rcases i with _ | i <;> cases hv
  rw [hatt] at hp
  rw [hheap] at hp'
  rcases i with _ | i <;> cases hp
  cases hp'
  obtain ⟨k, n, k1, k2, -, k3, k4, k5⟩ := hn _ rfl ⟨0, 0, 0⟩ 1 2 3 tiltSQ (1 / 2 ^ 23) 12 1 (dv _ _ _ _ _ _ false false false (by decide +kernel))
    ⟨false, by decide +kernel⟩ ⟨false, by decide +kernel⟩ ⟨false, by decide +kernel⟩
    ⟨dv _ _ _ _ _ _ false false false (by decide +kernel), dv _ _ _ _ _ _ false false false (by decide +kernel),
      dv _ _ _ _ _ _ true false false (by decide +kernel)⟩
    (by constructor <;> constructor <;> decide +kernel) (by decide +kernel) (by decide +kernel) (by decide +kernel) (by decide +kernel)
    (by decide +kernel) (by decide +kernel) (by decide +kernel) (by decide +kernel) (slanted_of_evalS (by decide +kernel))
    (.inl (by decide +kernel))
  refine ⟨d, k, n, hd, k1, k2, k3, k4.trans (by decide +kernel), ?_⟩
  have hn' : IsV (tubeRecordS.copyTo rayhit).2.normal ⟨-1255793 / 2097152, 8453473 / 134217728, 13395125 / 16777216⟩ := by
    rw [hc]
    show IsV tubeRecordS.hit.ng _
    exact ⟨⟨true, by decide +kernel⟩, ⟨false, by decide +kernel⟩, ⟨false, by decide +kernel⟩⟩
  obtain rfl := k3.unique hn'
  rcases k5 with ⟨σ, hσ, -, h5⟩ | ⟨⟨h5, h6⟩, m, h7, h8⟩
  · have h6 := h5 0
    exfalso
    revert h6
    rcases hσ with rfl | rfl <;> decide +kernel
  · refine ⟨⟨h5.trans (by decide +kernel), h6.trans (by decide +kernel)⟩, m, h7, fun j => (h8 j).trans (by decide +kernel)⟩

end Blazert
