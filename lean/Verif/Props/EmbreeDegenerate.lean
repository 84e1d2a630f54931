/- C102: rays that are no rays, with Embree. -/
import Verif.Proofs.EmbreeDegenerate
import Verif.Proofs.Gradual
import Verif.Props.EmbreeFound

set_option autoImplicit false

namespace Blazert
open Scalar

section
variable {K : Type} [Field K] [LinearOrder K] [IsStrictOrderedRing K] [FloorRing K] {F : Fmt K}

/-- **C102**, general.  In any format in which zero is a number, for an Embree scene in any state without cylinders, and an Embree that finds
no hits on meshes for what is no ray: if the ray passed is no ray, then a query that comes to an end reports no hit and leaves the record as it
is.

This is partial: it excludes cylinders, for which it is false (`C102_cylinder_nan`; see `C102_distance_partial` for what is left). -/
theorem C102_no_hit_partial (hz : F.post 0 = some 0) (s : EmbScene (XF F)) (hcyl : ∀ i c, ¬ s.HasUser i (.cylinder c)) (rtc : Rtc (XF F))
    (hrtc : ∀ v f id rh, NoRay rh.ray.org rh.ray.dir → rtc.tri v f id rh = rh) (ray : Ray (XF F)) (hray : NoRay ray.origin ray.direction)
    (rayhit out : RayHit (XF F)) (hit : Bool) (h : s.Intersect1 rtc ray rayhit (.ok (hit, out))) : hit = false ∧ out = rayhit := by
  unfold EmbScene.Intersect1 at h
  cases hk : s.known with
  | none => rw [hk] at h; cases h
  | some bounds =>
    rw [hk] at h
    simp only at h
    split at h
    · cases h
    · obtain ⟨order, r', -, htr, e⟩ := h
      cases r' with
      | error _ => cases e
      | ok x =>
        have hx : x = ray.toRtc := by
          refine htr.invariant (fun rh => rh = ray.toRtc) rfl (fun i hi a b ha hab => ?_) x rfl
          subst ha
          cases hg : s.attached[i]? with
          | none => simp [EmbScene.process, lookup, hg] at hab
          | some g =>
            cases g with
            | mesh v f =>
              rw [process_mesh hg] at hab
              cases hab
              exact hrtc v f i _ hray
            | user p =>
              cases hp : s.heap[p]? with
              | none => simp [EmbScene.process, lookup_eq_ok.2 hg, EmbScene.deref, hp] at hab
              | some q =>
                cases q with
                | none => simp [EmbScene.process, lookup_eq_ok.2 hg, EmbScene.deref, hp] at hab
                | some q =>
                  have hu : s.HasUser i q := ⟨p, hg, hp⟩
                  rw [process_user hu] at hab
                  cases hab
                  exact q.intersect_lost hz (fun c e => hcyl i c (e ▸ hu)) invalidId _ hray
        subst hx
        have e' : (hit, out) = ray.toRtc.copyTo rayhit := Except.ok.inj e
        unfold RtcRayHit.copyTo at e'
        rw [if_neg (fun h => h rfl)] at e'
        exact ⟨(Prod.mk.inj e').1, (Prod.mk.inj e').2⟩

/-- **C102**, with cylinders: in any scene, if a hit is reported for what is no ray, the distance reported is an infinity or NaN. -/
theorem C102_distance_partial (hz : F.post 0 = some 0) (s : EmbScene (XF F)) (rtc : Rtc (XF F))
    (hrtc : ∀ v f id rh, NoRay rh.ray.org rh.ray.dir → rtc.tri v f id rh = rh) (ray : Ray (XF F)) (hray : NoRay ray.origin ray.direction)
    (rayhit out : RayHit (XF F)) (h : s.Intersect1 rtc ray rayhit (.ok (true, out))) : out.hitDistance.NotFinite := by
  unfold EmbScene.Intersect1 at h
  cases hk : s.known with
  | none => rw [hk] at h; cases h
  | some bounds =>
    rw [hk] at h
    simp only at h
    split at h
    · cases h
    · obtain ⟨order, r', -, htr, e⟩ := h
      cases r' with
      | error _ => cases e
      | ok x =>
        have hx : SameLine x.ray ray.toRtc.ray ∧ (x.hit.geomID = invalidId ∨ x.ray.tfar.NotFinite) := by
          refine htr.invariant (fun rh => SameLine rh.ray ray.toRtc.ray ∧ (rh.hit.geomID = invalidId ∨ rh.ray.tfar.NotFinite))
            ⟨⟨rfl, rfl, rfl⟩, .inl rfl⟩ (fun i hi a b ha hab => ?_) x rfl
          have hno : NoRay a.ray.org a.ray.dir := by rw [ha.1.org, ha.1.dir]; exact hray
          cases hg : s.attached[i]? with
          | none => simp [EmbScene.process, lookup, hg] at hab
          | some g =>
            cases g with
            | mesh v f =>
              rw [process_mesh hg] at hab
              cases hab
              rw [hrtc v f i _ hno]
              exact ha
            | user p =>
              cases hp : s.heap[p]? with
              | none => simp [EmbScene.process, lookup_eq_ok.2 hg, EmbScene.deref, hp] at hab
              | some q =>
                cases q with
                | none => simp [EmbScene.process, lookup_eq_ok.2 hg, EmbScene.deref, hp] at hab
                | some q =>
                  have hu : s.HasUser i q := ⟨p, hg, hp⟩
                  rw [process_user hu] at hab
                  cases hab
                  refine ⟨(q.intersect_line invalidId a).trans ha.1, ?_⟩
                  rcases q.records_lost hz invalidId a hno with e | e
                  · rw [e]; exact ha.2
                  · exact .inr e
        have e' : (true, out) = x.copyTo rayhit := Except.ok.inj e
        unfold RtcRayHit.copyTo at e'
        split at e'
        · rename_i hid
          rw [(Prod.mk.inj e').2]
          exact hx.2.resolve_left hid
        · cases e'

end

/-- **C102** for `float`, the type of the Embree back-end, and rays made by the constructor: a hit is reported only if the components of the
origin are numbers and the length of the direction passed, as computed, is a number other than zero.  Partial, as above. -/
theorem C102_float_partial (s : EmbScene Single) (hcyl : ∀ i c, ¬ s.HasUser i (.cylinder c)) (rtc : Rtc Single)
    (hrtc : ∀ v f id rh, NoRay rh.ray.org rh.ray.dir → rtc.tri v f id rh = rh) (origin direction : Vec3 Single) (minHit maxHit : Single)
    (any : Bool) (rayhit out : RayHit Single) (hit : Bool)
    (h : s.Intersect1 rtc (Ray.make origin direction minHit maxHit any) rayhit (.ok (hit, out))) :
    (∃ o l, IsV origin o ∧ (Vec3.norm direction).Is l ∧ l ≠ 0) ∨ (hit = false ∧ out = rayhit) := by
  by_cases hn : NoRay (Ray.make origin direction minHit maxHit any).origin (Ray.make origin direction minHit maxHit any).direction
  · exact .inr (C102_no_hit_partial binary32_gradual.zero s hcyl rtc hrtc _ hn rayhit out hit h)
  · left
    rw [noRay_iff] at hn
    obtain ⟨o, ho⟩ := isV_of_finite (v := origin) fun h => hn (.inl h)
    by_contra hl
    exact hn (.inr (normalize_lost direction fun ⟨l, h1, h2⟩ => hl ⟨o, l, ho, h1, h2⟩))

/-! ### Cylinders -/

/-- a rotation matrix (up to rounding) that turns the `z` axis to `(1, 2, 2) / 3` -/
def tiltedRot : Mat3 Single := ⟨svec (2/3) (2/3) (1/3), svec (1/3) (-2/3) (2/3), svec (-2/3) (1/3) (2/3)⟩

/-- a cylinder of radius 1 and height 2 around the origin, in a scene of its own -/
def tiltedCylinder : List (EmbCall Single) := [.addCylinders [svec 0 0 0] [sgl 1] [sgl 1] [sgl 2] [tiltedRot], .commit]

/-- what the callback makes of the ray of the witness -/
def tiltedRecord : RtcRayHit Single := (EmbCyl.mk (svec 0 0 0) (sgl 1) (sgl 1) (sgl 2) tiltedRot 0).intersect invalidId
  (Ray.make' (svec 0 0 0) (svec (1 / 10 ^ 30) (1 / 10 ^ 30) (1 / 10 ^ 30))).toRtc

/-- **C102** is false for cylinders: a ray from the centre of a cylinder with the direction `(1e-30, 1e-30, 1e-30)`, whose length is computed
as zero, so that its components become infinite.  In any Embree, if it calls the callback, a hit is reported, at the distance NaN. -/
theorem C102_cylinder_nan (l : Layout) : ∃ s : EmbScene Single, embRun l .init tiltedCylinder = .ok s ∧
    (Ray.make' (svec 0 0 0) (svec (1 / 10 ^ 30) (1 / 10 ^ 30) (1 / 10 ^ 30))).direction = ⟨.inf false, .inf false, .inf false⟩ ∧
    ∀ rtc rayhit, ∃ out, s.Intersect1 rtc (Ray.make' (svec 0 0 0) (svec (1 / 10 ^ 30) (1 / 10 ^ 30) (1 / 10 ^ 30))) rayhit (.ok (true, out)) ∧
      out.hitDistance = .nan := by
  refine ⟨_, rfl, by decide +kernel, fun rtc rayhit => ?_⟩
  have hg : tiltedRecord.hit.geomID ≠ invalidId := by decide +kernel
  have hc : tiltedRecord.copyTo rayhit = (true, { rayhit with
      primId := tiltedRecord.hit.primID, uv := (tiltedRecord.hit.u, tiltedRecord.hit.v), hitDistance := tiltedRecord.ray.tfar,
      normal := tiltedRecord.hit.ng }) := by unfold RtcRayHit.copyTo; rw [if_pos hg]
  refine ⟨(tiltedRecord.copyTo rayhit).2, ⟨[0], .ok tiltedRecord, .refl _, .call rfl (.done _), ?_⟩, ?_⟩
  · show Except.ok _ = Except.ok (tiltedRecord.copyTo rayhit)
    rw [hc]
  · rw [hc]
    show tiltedRecord.ray.tfar = .nan
    decide +kernel

/-! ### Examples -/

/-- a sphere is not hit by the ray of the witness, in any Embree that finds no meshes for it -/
example (l : Layout) (rtc : Rtc Single) (hrtc : ∀ v f id rh, NoRay rh.ray.org rh.ray.dir → rtc.tri v f id rh = rh)
    (rayhit out : RayHit Single) (hit : Bool) : ∃ s : EmbScene Single, embRun l .init [.addSpheres [svec 0 0 0] [sgl 1], .commit] = .ok s ∧
    (s.Intersect1 rtc (Ray.make' (svec 0 0 0) (svec (1 / 10 ^ 30) (1 / 10 ^ 30) (1 / 10 ^ 30))) rayhit (.ok (hit, out)) →
      hit = false ∧ out = rayhit) := by
  refine ⟨_, rfl, fun h => ?_⟩
  rcases C102_float_partial _ (fun i c ⟨p, h1, h2⟩ => by
    rcases i with _ | i
    · cases h1; cases h2
    · cases h1) rtc hrtc _ _ _ _ _ rayhit out hit h with ⟨o, l, -, hl, h0⟩ | h
  · have e : Vec3.norm (svec (1 / 10 ^ 30) (1 / 10 ^ 30) (1 / 10 ^ 30)) = .fin 0 false := by decide +kernel
    rw [e] at hl
    obtain ⟨b, e'⟩ := hl
    cases e'
    exact (h0 rfl).elim
  · exact h

/-- such an Embree exists -/
example : ∃ rtc : Rtc Single, ∀ v f id rh, NoRay rh.ray.org rh.ray.dir → rtc.tri v f id rh = rh :=
  ⟨⟨fun _ _ _ rh => rh, fun _ _ => False⟩, fun _ _ _ _ _ => rfl⟩

end Blazert
