/- C98: rounding loses no clear hit in an Embree scene. -/
import Verif.Proofs.EmbreeFound
import Verif.Props.EmbreeRound

set_option autoImplicit false

namespace Blazert
open Scalar

section
variable {K : Type} [Field K] [LinearOrder K] [IsStrictOrderedRing K] [FloorRing K] {F : Fmt K}

/-- **C98**, first part.  In any format that rounds, for an Embree scene in any state that calls of the API lead to and that has been
committed since the last change: if the ray meets the sphere or the rectangle clearly, closer than its upper limit, then every query
reports a hit, whatever else is in the scene (cylinders and meshes as well). -/
theorem C98_reported (u η hi L ε : K) (hF : F.Rounds u η hi) (hodd : F.Odd) (hs : Scale u η hi L) (htiny : |F.tiny| ≤ L) (ε0 : 0 ≤ ε)
    (hε : ε ≤ 1 / 1000) {l : Layout} {calls : List (EmbCall (XF F))} {s : EmbScene (XF F)} (hrun : embRun l .init calls = .ok s)
    (hup : s.UpToDate) (hlen : s.attached.length ≤ invalidId) {rtc : Rtc (XF F)} (hrtc : rtc.Careful) (origin direction : Vec3 (XF F))
    (minHit maxHit : XF F) {any : Bool} (o p d : Vec3 K) (m X : K) (ho : IsV origin o) (hdir : IsV direction p) (hmin : minHit.Is m)
    (hm : 0 ≤ m) (hscale : Scale u η hi (|p.x| + |p.y| + |p.z|)) (hmax : maxHit.Is X)
    (hd : IsV (Ray.make origin direction minHit maxHit any).direction d) (i : Nat) (g : UserGeom (XF F)) (hg : s.HasUser i g)
    (hsize : g.Within ε L o) (τ M : K) (hmet : g.ClearlyMet u ε L o d m τ M) (hX : τ + M < X) (rayhit : RayHit (XF F))
    (r : Run (Bool × RayHit (XF F))) (h : s.Intersect1 rtc (Ray.make origin direction minHit maxHit any) rayhit r) :
    ∃ out, r = .ok (true, out) := by
  obtain ⟨bounds, order, z, hb, hperm, htr, rfl, hline, hlim⟩ := found_setup hF hrun hup ho hdir hmin hm hscale hmax hd h
  have hids := (embInv_of_run hrun).ids
  have hi : i < s.attached.length := by
    obtain ⟨q, hq, -⟩ := hg
    exact (List.getElem?_eq_some_iff.1 hq).1
  have hz : z.hit.geomID ≠ invalidId := by
    refine htr.recorded i (hperm.mem_iff.2 (List.mem_range.2 hi)) (.inl rfl)
      (fun j hj x y hxy => process_recorded hrtc hlen hids (List.mem_range.1 (hperm.mem_iff.1 hj)) hxy) (fun y hy => ?_) ?_ z rfl
    · rw [process_user hg] at hy
      cases hy
      rw [(UserGeom.found hF hodd hs ε0 hε invalidId hline hsize hmet hmax).2 hX, hids i g hg]
      omega
    · rintro ⟨b, h1, h2⟩
      rw [hb i g hg] at h1
      cases h1
      exact absurd (UserGeom.called hF hodd hs htiny hε hrtc hline hsize hmet hmax h2) (not_le.2 hX)
  rw [RtcRayHit.copyTo, if_pos hz]
  exact ⟨_, rfl⟩

/-- **C98**, second part.  If moreover the scene has no cylinder (`Within` excludes them), the reported distance is not greater than that of
the clear hit, up to a margin that grows with the number of geometries. -/
theorem C98_closest (u η hi L ε : K) (hF : F.Rounds u η hi) (hfa : F.Faithful u η) (hodd : F.Odd) (hs : Scale u η hi L)
    (htiny : |F.tiny| ≤ L) (ε0 : 0 ≤ ε)
    (hε : ε ≤ 1 / 1000) {l : Layout} {calls : List (EmbCall (XF F))} {s : EmbScene (XF F)} (hrun : embRun l .init calls = .ok s)
    (hup : s.UpToDate) (hlen : s.attached.length ≤ invalidId) {rtc : Rtc (XF F)} (hrtc : rtc.Careful) (origin direction : Vec3 (XF F))
    (minHit maxHit : XF F) {any : Bool} (o p d : Vec3 K) (m X : K) (ho : IsV origin o) (hdir : IsV direction p) (hmin : minHit.Is m)
    (hm : 0 ≤ m) (hscale : Scale u η hi (|p.x| + |p.y| + |p.z|)) (hmax : maxHit.Is X)
    (hd : IsV (Ray.make origin direction minHit maxHit any).direction d) (hsize : ∀ j q, s.HasUser j q → q.Within ε L o)
    (i : Nat) (g : UserGeom (XF F)) (hg : s.HasUser i g) (τ M : K) (hmet : g.ClearlyMet u ε L o d m τ M) (hX : τ + M < X)
    (rayhit : RayHit (XF F))
    (r : Run (Bool × RayHit (XF F))) (h : s.Intersect1 rtc (Ray.make origin direction minHit maxHit any) rayhit r) :
    ∃ out k, r = .ok (true, out) ∧ out.hitDistance.Is k ∧ k ≤ τ + M + 220 * (s.attached.length + 1) * (u + ε) * L := by
  obtain ⟨out, hr⟩ := C98_reported u η hi L ε hF hodd hs htiny ε0 hε hrun hup hlen hrtc origin direction minHit maxHit o p d m X ho hdir
    hmin hm hscale hmax hd i g hg (hsize i g hg) τ M hmet hX rayhit r h
  obtain ⟨bounds, order, z, hb, hperm, htr, hr', hline, hlim⟩ := found_setup hF hrun hup ho hdir hmin hm hscale hmax hd h
  have hi : i < s.attached.length := by
    obtain ⟨q, hq, -⟩ := hg
    exact (List.getElem?_eq_some_iff.1 hq).1
  have W0 : 0 ≤ (u + ε) * L := mul_nonneg (add_nonneg hs.u_pos.le ε0) hs.pos.le
  obtain ⟨k, h1, h2⟩ := htr.limit_found (e := 220 * ((u + ε) * L)) (B := τ + M + 220 * ((u + ε) * L)) (by linarith)
    (fun j hj x y k hxy hk => process_limit hF hfa hodd hs ε0 hε hrtc hline hsize hxy hk) i (hperm.mem_iff.2 (List.mem_range.2 hi))
    (fun x y k hy hk => by
      rw [process_user hg] at hy
      cases hy
      obtain ⟨k', h1, h2⟩ := (UserGeom.found hF hodd hs ε0 hε invalidId (hline.same hk.1) (hsize i g hg) hmet hk.2).1
      exact ⟨k', ⟨(g.intersect_line invalidId x).trans hk.1, h1⟩, h2⟩)
    (fun x k hk hskip => by
      obtain ⟨b, h1, h2⟩ := hskip
      rw [hb i g hg] at h1
      cases h1
      have := UserGeom.called hF hodd hs htiny hε hrtc (hline.same hk.1) (hsize i g hg) hmet hk.2 h2
      linarith) X hlim z rfl
  refine ⟨out, k, hr, ?_, ?_⟩
  · rw [hr'] at hr
    have hr2 := Except.ok.inj hr
    unfold RtcRayHit.copyTo at hr2
    split at hr2
    · rw [← (Prod.mk.inj hr2).2]; exact h1.2
    · cases hr2
  · rw [hperm.length_eq, List.length_range] at h2
    refine h2.trans_eq (by ring)

end

/-- **C98** for `float`, the type of the Embree back-end, first part. -/
theorem C98_reported_float (L ε : ℚ) (hL1 : 1 / 2 ^ 51 ≤ L) (hL2 : L ≤ 2 ^ 60) (ε0 : 0 ≤ ε) (hε : ε ≤ 1 / 1000)
    {l : Layout} {calls : List (EmbCall Single)} {s : EmbScene Single} (hrun : embRun l .init calls = .ok s)
    (hup : s.UpToDate) (hlen : s.attached.length ≤ invalidId) {rtc : Rtc Single} (hrtc : rtc.Careful) (origin direction : Vec3 Single)
    (minHit maxHit : Single) {any : Bool} (o p d : Vec3 ℚ) (m X : ℚ) (ho : IsV origin o) (hdir : IsV direction p) (hmin : minHit.Is m)
    (hm : 0 ≤ m) (hp1 : 1 / 2 ^ 51 ≤ |p.x| + |p.y| + |p.z|) (hp2 : |p.x| + |p.y| + |p.z| ≤ 2 ^ 60) (hmax : maxHit.Is X)
    (hd : IsV (Ray.make origin direction minHit maxHit any).direction d) (i : Nat) (g : UserGeom Single) (hg : s.HasUser i g)
    (hsize : g.Within ε L o) (τ M : ℚ) (hmet : g.ClearlyMet (1 / 2 ^ 24) ε L o d m τ M) (hX : τ + M < X) (rayhit : RayHit Single)
    (r : Run (Bool × RayHit Single)) (h : s.Intersect1 rtc (Ray.make origin direction minHit maxHit any) rayhit r) :
    ∃ out, r = .ok (true, out) :=
  have ht : |Format.binary32.tiny| ≤ 1 / 2 ^ 51 := by decide +kernel
  C98_reported _ _ _ L ε rounds_float Format.binary32_odd (scale_float hL1 hL2) (ht.trans hL1) ε0 hε hrun hup hlen hrtc origin direction
    minHit maxHit o p d m X ho hdir hmin hm (scale_float hp1 hp2) hmax hd i g hg hsize τ M hmet hX rayhit r h

/-- **C98** for `float`, second part. -/
theorem C98_closest_float (L ε : ℚ) (hL1 : 1 / 2 ^ 51 ≤ L) (hL2 : L ≤ 2 ^ 60) (ε0 : 0 ≤ ε) (hε : ε ≤ 1 / 1000)
    {l : Layout} {calls : List (EmbCall Single)} {s : EmbScene Single} (hrun : embRun l .init calls = .ok s)
    (hup : s.UpToDate) (hlen : s.attached.length ≤ invalidId) {rtc : Rtc Single} (hrtc : rtc.Careful) (origin direction : Vec3 Single)
    (minHit maxHit : Single) {any : Bool} (o p d : Vec3 ℚ) (m X : ℚ) (ho : IsV origin o) (hdir : IsV direction p) (hmin : minHit.Is m)
    (hm : 0 ≤ m) (hp1 : 1 / 2 ^ 51 ≤ |p.x| + |p.y| + |p.z|) (hp2 : |p.x| + |p.y| + |p.z| ≤ 2 ^ 60) (hmax : maxHit.Is X)
    (hd : IsV (Ray.make origin direction minHit maxHit any).direction d) (hsize : ∀ j q, s.HasUser j q → q.Within ε L o)
    (i : Nat) (g : UserGeom Single) (hg : s.HasUser i g) (τ M : ℚ) (hmet : g.ClearlyMet (1 / 2 ^ 24) ε L o d m τ M) (hX : τ + M < X)
    (rayhit : RayHit Single)
    (r : Run (Bool × RayHit Single)) (h : s.Intersect1 rtc (Ray.make origin direction minHit maxHit any) rayhit r) :
    ∃ out k, r = .ok (true, out) ∧ out.hitDistance.Is k ∧ k ≤ τ + M + 220 * (s.attached.length + 1) * (1 / 2 ^ 24 + ε) * L :=
  have ht : |Format.binary32.tiny| ≤ 1 / 2 ^ 51 := by decide +kernel
  C98_closest _ _ _ L ε rounds_float faithful_float Format.binary32_odd (scale_float hL1 hL2) (ht.trans hL1) ε0 hε hrun hup hlen hrtc
    origin direction minHit maxHit o p d m X ho hdir hmin hm (scale_float hp1 hp2) hmax hd hsize i g hg τ M hmet hX rayhit r h

/-! ### Examples -/

/-- there is a careful Embree: one that finds no hits on meshes and calls every callback -/
example : ∃ rtc : Rtc Single, rtc.Careful := ⟨⟨fun _ _ _ rh => rh, fun _ _ => False⟩, fun _ _ h => h.elim, fun _ _ _ _ => .inl rfl⟩

/-- the identity matrix of `float`s -/
def sIdMat : Mat3 Single := ⟨svec 1 0 0, svec 0 1 0, svec 0 0 1⟩

/-- A unit sphere around the origin and a rectangle behind it, perpendicular to `z`, and a ray along `z` that passes the centre at a distance of
`1/2`.  It enters the sphere at `5 - √(3/4) ≈ 4.134`, which is not a `float`.  Whatever a careful Embree does, it reports a hit at 4.18 at
most. -/
example (rtc : Rtc Single) (hrtc : rtc.Careful) (l : Layout) (rayhit : RayHit Single) :
    ∃ s : EmbScene Single, embRun l .init [.addSpheres [svec 0 0 0] [sgl 1], .addPlanes [svec 0 0 3] [sgl 4] [sgl 4] [sIdMat], .commit] =
        .ok s ∧ ∀ r, s.Intersect1 rtc (Ray.make (svec 0 (1/2) (-5)) (svec 0 0 1) (sgl 0) (sgl 100) false) rayhit r →
      ∃ out k, r = .ok (true, out) ∧ out.hitDistance.Is k ∧ k ≤ 418 / 100 := by
  refine ⟨_, rfl, fun r h => ?_⟩
  have f0 : (sgl 0).Is 0 := ⟨false, by decide +kernel⟩
  have f1 : (sgl 1).Is 1 := ⟨false, by decide +kernel⟩
  have f3 : (sgl 3).Is 3 := ⟨false, by decide +kernel⟩
  have f4 : (sgl 4).Is 4 := ⟨false, by decide +kernel⟩
  have f100 : (sgl 100).Is 100 := ⟨false, by decide +kernel⟩
  have fo : IsV (svec 0 (1/2) (-5)) ⟨0, 1/2, -5⟩ := ⟨⟨false, by decide +kernel⟩, ⟨false, by decide +kernel⟩, ⟨true, by decide +kernel⟩⟩
  have fd : IsV (Ray.make (svec 0 (1/2) (-5)) (svec 0 0 1) (sgl 0) (sgl 100) false).direction ⟨0, 0, 1⟩ :=
    ⟨⟨false, by decide +kernel⟩, ⟨false, by decide +kernel⟩, ⟨false, by decide +kernel⟩⟩
  have hsph : ∀ n, (UserGeom.sphere ⟨svec 0 0 0, sgl 1, n⟩ : UserGeom Single).Within 0 20 ⟨0, 1/2, -5⟩ :=
    fun n => ⟨⟨0, 0, 0⟩, 1, ⟨f0, f0, f0⟩, f1, by norm_num [abs_of_nonneg, abs_of_neg]⟩
  have hpl : ∀ n, (UserGeom.plane ⟨svec 0 0 3, sgl 4, sgl 4, sIdMat, n⟩ : UserGeom Single).Within 0 20 ⟨0, 1/2, -5⟩ :=
    fun n => ⟨⟨0, 0, 3⟩, 4, 4, ⟨⟨1, 0, 0⟩, ⟨0, 1, 0⟩, ⟨0, 0, 1⟩⟩, ⟨f0, f0, f3⟩, f4, f4, ⟨⟨f1, f0, f0⟩, ⟨f0, f1, f0⟩, ⟨f0, f0, f1⟩⟩,
      by constructor <;> constructor <;> decide +kernel, by norm_num [abs_of_nonneg, abs_of_neg]⟩
  obtain ⟨out, k, h1, h2, h3⟩ := C98_closest_float 20 0 (by norm_num) (by norm_num) le_rfl (by norm_num) (l := l)
    (calls := [.addSpheres [svec 0 0 0] [sgl 1], .addPlanes [svec 0 0 3] [sgl 4] [sgl 4] [sIdMat], .commit]) rfl ⟨_, rfl, rfl⟩
    (by decide) hrtc (svec 0 (1/2) (-5)) (svec 0 0 1) (sgl 0) (sgl 100) ⟨0, 1/2, -5⟩ ⟨0, 0, 1⟩ ⟨0, 0, 1⟩ 0 100 fo ⟨f0, f0, f1⟩ f0 le_rfl
    (by norm_num) (by norm_num) f100 fd
    (fun j q hq => by
      obtain ⟨a, ha, hq⟩ := hq
      rcases j with _ | _ | j
      · cases ha; cases hq; exact hsph 0
      · cases ha; cases hq; exact hpl 1
      · cases ha)
    0 (.sphere ⟨svec 0 0 0, sgl 1, 0⟩) ⟨0, rfl, rfl⟩ (417 / 100) 0
    ⟨⟨0, 0, 0⟩, 1, ⟨f0, f0, f0⟩, f1, by norm_num, by norm_num, le_rfl, by decide +kernel, by decide +kernel⟩ (by norm_num) rayhit r h
  refine ⟨out, k, h1, h2, h3.trans ?_⟩
  show (417 / 100 : ℚ) + 0 + 220 * (((2 : ℕ) : ℚ) + 1) * (1 / 2 ^ 24 + 0) * 20 ≤ 418 / 100
  norm_num

end Blazert
