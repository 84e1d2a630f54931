/- Property theorems C02, C03, C04, C37, C47, C48, C49 for scenes with cylinders, and C02 in any arithmetic. -/
import Verif.Proofs.CylinderScene
import Verif.Props.Traverse
import Verif.SampleCylinder

set_option autoImplicit false
set_option linter.unusedSectionVars false

namespace Blazert
open Scalar

/-! ### C02 -/

section
variable {T : Type} [Scalar T]

/-- **C02**, in any arithmetic (with rounding, overflow and NaN), for all four kinds of geometry and any ray: if `intersect1` reports
a hit, then the distance is below the max hit distance of the ray, and the record is what the test of the named primitive of the named
geometry produces for this ray. -/
theorem C02_provenance (hlt : IrreflLt T) {s : Scene T} {rs : List Nat} (hist : History s rs) (hc : s.committed = true) (ray : Ray T)
    (rh0 rh : RayHit T) (h : s.intersect1 ray rh0 = .ok (true, rh)) :
    (∃ q, s.mesh = some q ∧ ReportedBy (triIx q.coll) q.coll.toCollection (TriStart ray) ray q.geomId rh) ∨
    (∃ q, s.spheres = some q ∧ ReportedBy (sphereIx q.coll) q.coll.toCollection (SphereStart ray) ray q.geomId rh) ∨
    (∃ q, s.planes = some q ∧ ReportedBy planeIx q.coll.toCollection (PlaneStart ray) ray q.geomId rh) ∨
    (∃ q, s.cylinders = some q ∧ ReportedBy cylIx q.coll.toCollection (PlaneStart ray) ray q.geomId rh) :=
  intersect1_reportedBy hlt hist.ok hc ray rh0 rh h

end

section
variable {F : Fmt ℝ}

/-- **C02** for scenes with cylinders: every hit reported is a hit of the ray with the named mesh face (up to the tolerance), sphere or
plane, or a point of the surface of the named cylinder.  Missing: origins on the lateral surface of a cylinder from which the ray does
not run into it, see `C36_false_cap_hit`. -/
theorem C02_cylinders_partial (hF : F.Exact) {s : Scene (XF F)} {rs : List Nat} (hist : History s rs) (hc : s.committed = true)
    (hcont : s.Content) (hcyl : s.Cylinders) {origin direction : Vec3 (XF F)} {minHit maxHit : XF F} {o d : Vec3 ℝ} {m M : ℝ}
    (hray : RayBase origin direction minHit maxHit o d m M)
    (hlat : ∀ p, s.cylinders = some p → ∀ i c a b h R, CylIs p.coll i c a b h R → OnLateral c a b h R o →
      ∃ t, 0 < t ∧ InTube c a b R (along o (unit d) t)) (any : Bool) (rh0 rh : RayHit (XF F))
    (hrh0 : ∀ t, t < M → rh0.hitDistance.Above t)
    (h : s.intersect1 (Ray.make origin direction minHit maxHit any) rh0 = .ok (true, rh)) :
    ∃ t, rh.hitDistance.Is t ∧ t < M ∧ (s.Rep o (unit d) m rh t ∨ s.CylRep o (unit d) rh t) := by
  rcases three_kinds_spec hF hist hc hcont hray False (fun h => h.elim) any rh0 hrh0 with e | ⟨st, e, hq⟩
  · rw [h] at e; simp at e
  · rw [h] at e
    have e := e.symm
    rw [run_bind_eq_ok] at e
    obtain ⟨st', e1, e2⟩ := e
    simp only [Except.ok.injEq, Prod.mk.injEq] at e2
    obtain ⟨e2, rfl⟩ := e2
    rcases cylinders_reportedBy (XF.irreflLt F) hist.ok hc
      (Ray.make origin direction minHit maxHit any) e1 with e3 | ⟨q, hcq, ⟨p, s0, s', temp, rh', k1, k2, k3, k4, k5, k6, k7⟩, _, k8⟩
    · rw [e3] at e2 ⊢
      rcases hq with ⟨g1, _⟩ | ⟨_, t, g1, g2, g3, _⟩
      · rw [g1] at e2; simp at e2
      · exact ⟨t, g1, g2, .inl g3⟩
    · obtain ⟨c, a, b, hh, R, hi, H⟩ := CylColl.Content.test (hcyl q hcq) hF hray any k1
      obtain ⟨rh'', t, l1, l2, l3, l4, l5⟩ := cylRep_of_test hF k1 hi (H s0 k2) (hlat q hcq _ _ _ _ _ _ hi)
        (ray := Ray.make origin direction minHit maxHit any) k3 temp
      have : cylIx.post s' temp = .ok rh'' := l1
      rw [k6, Except.ok.injEq] at this
      subst this
      have hd : st'.2.1.hitDistance.Is t := by rw [← k4]; exact l4
      refine ⟨t, hd, (hd.lt hray.max).1 k5, .inr ⟨q, hcq, k8, ?_⟩⟩
      rw [k7]; exact l5.with_geomId _

/-! ### C37 -/

/-- **C37** with the other kinds of geometry present: if the ray meets at most one of the cylinders, then `intersect1` returns the
closest of all hits.  Missing: several cylinders met (see `C37_farther_wins`), orientations not taking axes to axes, a positive min hit
distance, origins on a cylinder or in the plane of its top or bottom. -/
theorem C37_one_met_partial (hF : F.Exact) {s : Scene (XF F)} {rs : List Nat} (hist : History s rs) (hc : s.committed = true)
    (hcont : s.Content) (hrange : s.InRange) (hcyl : s.Cylinders) (hdepth : DepthAtMost s 26) {origin direction : Vec3 (XF F)}
    {minHit maxHit : XF F} {o d : Vec3 ℝ} {M : ℝ} (hray : RayFor origin direction minHit maxHit o d 0 M) (hoff : s.OffZFaces o d)
    (hfind : s.CylFind o d)
    (hone : ∀ p, s.cylinders = some p → ∀ i j t t', CylTouch p.coll o (unit d) i t → CylTouch p.coll o (unit d) j t' → i = j)
    (rh0 : RayHit (XF F)) (hrh0 : ∀ t, t < M → rh0.hitDistance.Above t) :
    ∃ hit rh, s.intersect1 (Ray.make origin direction minHit maxHit false) rh0 = .ok (hit, rh) ∧
      (hit = false → rh = rh0 ∧ (∀ g i t, s.Hit o (unit d) 0 g i t → M ≤ t) ∧
        ∀ p, s.cylinders = some p → ∀ i t, CylHit p.coll o (unit d) i t → M ≤ t) ∧
      (hit = true → ∃ t, rh.hitDistance.Is t ∧ t < M ∧ (s.Rep o (unit d) 0 rh t ∨ s.CylRep o (unit d) rh t) ∧
        (∀ g i t', s.Hit o (unit d) 0 g i t' → t ≤ t') ∧
        ∀ p, s.cylinders = some p → ∀ i t', CylHit p.coll o (unit d) i t' → t ≤ t') := by
  obtain ⟨r, hr⟩ := C10_no_undefined_behaviour (XF.irreflLt F) s rs hist hc hdepth (Ray.make origin direction minHit maxHit false) rh0
  rcases three_kinds_spec hF hist hc hcont hray.toRayBase True (fun _ => ⟨hray, hrange, hoff⟩) false rh0 hrh0 with e | ⟨st, e, hq⟩
  · rw [hr] at e; simp at e
  · have hq' : QState M rh0 false (fun t => True ∧ ∃ g i, s.Hit o (unit d) 0 g i t)
        (fun rh t => s.Rep o (unit d) 0 rh t ∨ s.CylRep o (unit d) rh t) st := by
      rcases hq with g | ⟨g1, t, g2, g3, g4, g5⟩
      · exact .inl g
      · exact .inr ⟨g1, t, g2, g3, .inl g4, g5⟩
    rcases hq'.step hrh0 (fun _ => cylIx) false (Ray.make origin direction minHit maxHit false) rfl s.cylinders
      (fun q i t => CylHit q.coll o (unit d) i t) (fun q => CylRep q.coll o (unit d))
      (by
        intro q hcq temp
        have hp := hist.ok.cylinders
        rw [hc, hcq] at hp
        obtain ⟨⟨_, _, _, _, _, hmake⟩, -⟩ := hp q rfl
        obtain ⟨t, hb, hrep, hn⟩ := hp.tree
        rcases cyl_traverse hF hray false hmake (hcyl q hcq) (hfind.place q hcq) (hfind.range q hcq) (fun hz => hfind.offZ hz q hcq)
          _ _ t hb hrep hn temp with e | ⟨e, hno⟩ | ⟨rh, t, e, k1, k2, k3, k4, k5⟩
        · exact .inl e
        · refine .inr (.inl ⟨e, fun i t ht => ?_⟩)
          rcases hno with hno | ⟨j, t', ⟨h1, h2⟩, h3⟩
          · exact hno i t ht
          · obtain ⟨c, a, b, h, R, g1, g2, g3, _⟩ := ht
            have ht : CylTouch q.coll o (unit d) i t := ⟨c, a, b, h, R, g1, g2, g3⟩
            cases hone q hcq _ _ _ _ ht h1
            exact h3.trans (h2 t ht)
        · refine .inr (.inr ⟨rh, t, e, k1, k2, k3, fun _ i t' ht => ?_⟩)
          obtain ⟨c, a, b, h, R, g1, g2, g3, _⟩ := ht
          have ht : CylTouch q.coll o (unit d) i t' := ⟨c, a, b, h, R, g1, g2, g3⟩
          cases hone q hcq _ _ _ _ ht k4
          exact k5 t' ht)
      (by simp) (fun q hcq rh t ht => .inr ⟨q, hcq, rfl, ht.with_geomId _⟩) with e' | ⟨st', e', hq''⟩
    · rw [hr, e'] at e; simp at e
    · rw [e', run_bind_ok] at e
      refine ⟨_, _, e, ?_, ?_⟩
      · intro hf
        rcases hq'' with ⟨_, g1, g2⟩ | ⟨g1, _⟩
        · exact ⟨g1, fun g i t ht => g2 t (.inl ⟨trivial, g, i, ht⟩), fun p hp i t ht => g2 t (.inr ⟨p, i, hp, ht⟩)⟩
        · rw [hf] at g1; simp at g1
      · intro hf
        rcases hq'' with ⟨g1, _⟩ | ⟨_, t, g1, g2, g3, g4⟩
        · rw [hf] at g1; simp at g1
        · exact ⟨t, g1, g2, g3, fun g i t ht => g4 rfl t (.inl ⟨trivial, g, i, ht⟩), fun p hp i t ht => g4 rfl t (.inr ⟨p, i, hp, ht⟩)⟩

/-- **C37**, several cylinders: if the max hit distance is beyond all points of the ray on cylinders, and the ray runs through the
interior of one of them, then a hit is reported (by `C02_cylinders_partial`, a genuine one; by `C37_farther_wins`, not always the
closest one), with `any_hit` or without. -/
theorem C37_some_reported_partial (hF : F.Exact) {s : Scene (XF F)} {rs : List Nat} (hist : History s rs) (hc : s.committed = true)
    (hcont : s.Content) (hcyl : s.Cylinders) (hdepth : DepthAtMost s 26) {origin direction : Vec3 (XF F)}
    {minHit maxHit : XF F} {o d : Vec3 ℝ} {M : ℝ} (hray : RayFor origin direction minHit maxHit o d 0 M) (hfind : s.CylFind o d)
    {p : Part (CylColl (XF F)) (XF F) (Cylinder (XF F))} (hp : s.cylinders = some p)
    (hfar : ∀ i t, CylTouch p.coll o (unit d) i t → t < M) {i : Nat} {t : ℝ} (hhit : CylHit p.coll o (unit d) i t) (any : Bool)
    (rh0 : RayHit (XF F)) (hrh0 : ∀ t, t < M → rh0.hitDistance.Above t) :
    ∃ rh, s.intersect1 (Ray.make origin direction minHit maxHit any) rh0 = .ok (true, rh) := by
  obtain ⟨r, hr⟩ := C10_no_undefined_behaviour (XF.irreflLt F) s rs hist hc hdepth (Ray.make origin direction minHit maxHit any) rh0
  rcases three_kinds_spec hF hist hc hcont hray.toRayBase False (fun h => h.elim) any rh0 hrh0 with e | ⟨st, e, hq⟩
  · rw [hr] at e; simp at e
  · have hpp := hist.ok.cylinders
    rw [hc, hp] at hpp
    obtain ⟨⟨_, _, _, _, _, hmake⟩, -⟩ := hpp p rfl
    obtain ⟨tr, hb, hrep, hn⟩ := hpp.tree
    rcases cyl_traverse hF hray any hmake (hcyl p hp) (hfind.place p hp) (hfind.range p hp) (fun hz => hfind.offZ hz p hp)
      _ _ tr hb hrep hn st.1 with e' | ⟨e', hno⟩ | ⟨rh, t', e', k1, k2, _⟩
    · rw [hr, hp] at e
      obtain ⟨x, y, z⟩ := st
      simp only at e'
      simp [intersectPart, e'] at e
    · exfalso
      obtain ⟨c, a, b, h, R, g1, g2, g3, g4⟩ := hhit
      rcases hno with hno | ⟨j, t', ⟨h1, h2⟩, h3⟩
      · exact absurd (hno i t ⟨c, a, b, h, R, g1, g2, g3, g4⟩) (not_le.2 (hfar i t ⟨c, a, b, h, R, g1, g2, g3⟩))
      · exact absurd h3 (not_le.2 (hfar j t' h1))
    · rw [e, hp]
      obtain ⟨temp, rh1, hit⟩ := st
      simp only at e'
      rcases hq with ⟨g1, g2, _⟩ | ⟨g1, _⟩
      · simp only at g1 g2
        subst g1 g2
        have hlt : lt rh.hitDistance rh1.hitDistance = true := k1.lt_iff.2 (hrh0 t' k2)
        exact ⟨{ rh with geomId := p.geomId }, by simp [intersectPart, e', hlt]⟩
      · simp only at g1
        subst g1
        cases hlt : lt rh.hitDistance rh1.hitDistance with
        | true => exact ⟨{ rh with geomId := p.geomId }, by simp [intersectPart, e', hlt]⟩
        | false => exact ⟨rh1, by simp [intersectPart, e', hlt]⟩

/-- Two cylinders, one of which is met: the hypotheses of the theorems above can be met, and the hit at the distance 4 is
reported. -/
example : ∃ (s : Scene (XF exactFmt)) (rs : List Nat), History s rs ∧ s.committed = true ∧ s.Content ∧ s.InRange ∧ s.Cylinders ∧
    s.CylFind ⟨-5, 0, 0⟩ ⟨1, 0, 0⟩ ∧
    ∃ rh, s.intersect1 (Ray.make (rvec (-5) 0 0) (rvec 1 0 0) (rl 0) (rl 100) false) RayHit.fresh = .ok (true, rh) ∧
      rh.hitDistance.Is 4 ∧ s.CylRep ⟨-5, 0, 0⟩ ⟨1, 0, 0⟩ rh 4 ∧
      ∃ q, s.cylinders = some q ∧ ReportedBy cylIx q.coll.toCollection
        (PlaneStart (Ray.make (rvec (-5) 0 0) (rvec 1 0 0) (rl 0) (rl 100) false))
        (Ray.make (rvec (-5) 0 0) (rvec 1 0 0) (rl 0) (rl 100) false) q.geomId rh := by
  obtain ⟨s, nodes, hist, hcom, e1, e2, e3, e4, hdepth⟩ := sampleCyl_scene
  have hcont : s.Content := ⟨by simp [e1], by simp [e2], by simp [e3]⟩
  have hrange : s.InRange := ⟨by simp [e1], by simp [e2], by simp [e3]⟩
  have hcyl : s.Cylinders := fun p hp => by rw [e4] at hp; cases hp; exact sampleCyls_content
  have hoff : s.OffZFaces ⟨-5, 0, 0⟩ ⟨1, 0, 0⟩ := ⟨by simp [e1], by simp [e2], by simp [e3]⟩
  have hfind := sampleCyl_find e4
  have hone : ∀ p, s.cylinders = some p → ∀ i j t t', CylTouch p.coll ⟨-5, 0, 0⟩ (unit ⟨1, 0, 0⟩) i t →
      CylTouch p.coll ⟨-5, 0, 0⟩ (unit ⟨1, 0, 0⟩) j t' → i = j := by
    intro p hp i j t t' hi hj
    rw [e4] at hp; cases hp
    rw [sampleCyl_unit] at hi hj
    rw [(sampleCyl_touch hi).1, (sampleCyl_touch hj).1]
  refine ⟨s, _, hist, hcom, hcont, hrange, hcyl, hfind, ?_⟩
  obtain ⟨rh, hrh⟩ := C37_some_reported_partial exactFmt_exact hist hcom hcont hcyl hdepth (sampleCyl_ray 100) hfind e4
    (fun i t ht => by rw [sampleCyl_unit] at ht; linarith [(sampleCyl_touch ht).2.2]) (by rw [sampleCyl_unit]; exact sampleCyl_hit)
    false RayHit.fresh (sample_fresh le_rfl)
  obtain ⟨hit, rh', k1, _, k3⟩ := C37_one_met_partial exactFmt_exact hist hcom hcont hrange hcyl hdepth (sampleCyl_ray 100) hoff hfind hone
    RayHit.fresh (sample_fresh le_rfl)
  rw [hrh] at k1
  simp only [Except.ok.injEq, Prod.mk.injEq] at k1
  obtain ⟨rfl, rfl⟩ := k1
  obtain ⟨t, l1, l2, l3, _, l5⟩ := k3 rfl
  rw [sampleCyl_unit] at l3 l5
  have h4 := l5 _ e4 0 4 sampleCyl_hit
  rcases l3 with (⟨_, h, _⟩ | ⟨_, h, _⟩ | ⟨_, h, _⟩) | h
  · rw [e1] at h; simp at h
  · rw [e2] at h; simp at h
  · rw [e3] at h; simp at h
  · have h' := h
    obtain ⟨p, hp, _, c, a, b, hh, R, g1, g2, g3, _⟩ := h
    rw [e4] at hp; cases hp
    have := (sampleCyl_touch ⟨c, a, b, hh, R, g1, g2, g3⟩).2.1
    obtain rfl : t = 4 := le_antisymm h4 this
    refine ⟨rh, hrh, l1, h', ?_⟩
    rcases C02_provenance (XF.irreflLt _) hist hcom _ _ _ hrh with ⟨q, hq, _⟩ | ⟨q, hq, _⟩ | ⟨q, hq, _⟩ | h
    · rw [e1] at hq; simp at hq
    · rw [e2] at hq; simp at hq
    · rw [e3] at hq; simp at hq
    · exact h

end

/-! ### C04, C47, C48, C49 fail with cylinders -/

/-- cylinders of radius 1 and height 2 around the z axis with the given centers, committed -/
def cylindersAt (centers : List (Vec3 Double)) : List (Call Double) :=
  [.addCylinders centers (centers.map fun _ => dbl 1) (centers.map fun _ => dbl 1) (centers.map fun _ => dbl 2)
    (centers.map fun _ => ⟨dvec 1 0 0, dvec 0 1 0, dvec 0 0 1⟩), .commit]

/-- **C04** is false for scenes with cylinders: of two cylinders one is hit at 4, the other at 19; with the max hit distance 10 the
query without `any_hit` finds nothing, the query with `any_hit` finds a hit. -/
theorem C04_cylinders_differ :
    (∃ r, query stablePartition (cylindersAt [dvec 0 0 0, dvec 15 0 0]) (Ray.make (dvec (-5) 0 0) (dvec 1 0 0) (dbl 0) (dbl 10) false)
      RayHit.fresh = .ok r ∧ r.1 = false) ∧
    ∃ r, query stablePartition (cylindersAt [dvec 0 0 0, dvec 15 0 0]) (Ray.make (dvec (-5) 0 0) (dvec 1 0 0) (dbl 0) (dbl 10) true)
      RayHit.fresh = .ok r ∧ r.1 = true ∧ r.2.hitDistance = dbl 4 :=
  ⟨exists_ok_of_eval (by decide +kernel), exists_ok_of_eval (by decide +kernel)⟩

/-- **C47** is false for cylinders: the same two cylinders in the other order are hit at 4. -/
theorem C47_cylinder_order_matters :
    (∃ r, query stablePartition (cylindersAt [dvec 0 0 0, dvec 15 0 0]) (Ray.make (dvec (-5) 0 0) (dvec 1 0 0) (dbl 0) (dbl 10) false)
      RayHit.fresh = .ok r ∧ r.1 = false) ∧
    ∃ r, query stablePartition (cylindersAt [dvec 15 0 0, dvec 0 0 0]) (Ray.make (dvec (-5) 0 0) (dvec 1 0 0) (dbl 0) (dbl 10) false)
      RayHit.fresh = .ok r ∧ r.1 = true ∧ r.2.hitDistance = dbl 4 :=
  ⟨exists_ok_of_eval (by decide +kernel), exists_ok_of_eval (by decide +kernel)⟩

/-- **C48** is false for cylinders: adding the second cylinder makes the hit with the first one disappear. -/
theorem C48_cylinder_hides_hit :
    (∃ r, query stablePartition (cylindersAt [dvec 0 0 0]) (Ray.make (dvec (-5) 0 0) (dvec 1 0 0) (dbl 0) (dbl 10) false)
      RayHit.fresh = .ok r ∧ r.1 = true ∧ r.2.hitDistance = dbl 4) ∧
    ∃ r, query stablePartition (cylindersAt [dvec 0 0 0, dvec 15 0 0]) (Ray.make (dvec (-5) 0 0) (dvec 1 0 0) (dbl 0) (dbl 10) false)
      RayHit.fresh = .ok r ∧ r.1 = false :=
  ⟨exists_ok_of_eval (by decide +kernel), exists_ok_of_eval (by decide +kernel)⟩

/-- **C49** is false for cylinders: the hit with a tilted cylinder at a distance below 3.7 is lost if the max hit distance is 4,
because the bounding box, which is too small, begins only at 4.2. -/
theorem C49_tilted_cylinder_cut :
    let tilted : List (Call Double) := [.addCylinders [dvec 0 0 0] [dbl 1] [dbl 1] [dbl 2]
      [⟨dvec (3/5) 0 (4/5), dvec 0 1 0, dvec (-4/5) 0 (3/5)⟩], .commit]
    (∃ r, query stablePartition tilted (Ray.make (dvec (-5) 0 (1/8)) (dvec 1 0 0) (dbl 0) (dbl 100) false) RayHit.fresh = .ok r ∧
      r.1 = true ∧ lt r.2.hitDistance (dbl (37/10)) = true) ∧
    ∃ r, query stablePartition tilted (Ray.make (dvec (-5) 0 (1/8)) (dvec 1 0 0) (dbl 0) (dbl 4) false) RayHit.fresh = .ok r ∧
      r.1 = false :=
  ⟨exists_ok_of_eval (by decide +kernel), exists_ok_of_eval (by decide +kernel)⟩

/-- **C04** is false in double precision even for spheres: in the direction (1,2,0) the distance recorded for the first sphere is
rounded up from a value below the max hit distance to the max hit distance itself.  With `any_hit`, the search stops there and the
answer is no; without, the second sphere, much closer, is found. -/
theorem C04_rounding_differs :
    let spheres : List (Call Double) := [.addSpheres [dvec 2 4 0, dvec 1 2 0] [dbl 1, dbl (1/2)], .commit]
    let maxHit : Double := dbl (7818555096557899 / 2251799813685248)
    (∃ r, query stablePartition spheres (Ray.make (dvec 0 0 0) (dvec 1 2 0) (dbl 0) maxHit true) RayHit.fresh = .ok r ∧ r.1 = false) ∧
    ∃ r, query stablePartition spheres (Ray.make (dvec 0 0 0) (dvec 1 2 0) (dbl 0) maxHit false) RayHit.fresh = .ok r ∧
      r.1 = true ∧ r.2.primId = 1 ∧ lt r.2.hitDistance (dbl 2) = true :=
  ⟨exists_ok_of_eval (by decide +kernel), exists_ok_of_eval (by decide +kernel)⟩

end Blazert
