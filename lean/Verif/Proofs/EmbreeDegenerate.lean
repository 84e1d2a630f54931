/- Helper lemmas: infinities, NaN and zero directions in the callbacks for Embree. -/
import Verif.Proofs.Degenerate
import Verif.Proofs.EmbreeApi

set_option autoImplicit false
set_option linter.unusedSectionVars false

namespace Blazert
open Scalar

section
variable {K : Type} [Field K] [LinearOrder K] [FloorRing K] {F : Fmt K}

theorem EmbSphere.intersect_lost (hz : F.post 0 = some 0) (s : EmbSphere (XF F)) (instID : Nat) (rh : RtcRayHit (XF F))
    (h : NotFiniteV rh.ray.org ∨ NotFiniteV rh.ray.dir ∨ AllNil rh.ray.dir) : s.intersect instID rh = rh := by
  have ht : ∀ Q, (ofRat (1/2) * (nat 1 / Vec3.dot rh.ray.dir rh.ray.dir) * (-(nat 2 * Vec3.dot (rh.ray.org - s.center) rh.ray.dir) - Q) : XF F).NotFinite ∧
      (ofRat (1/2) * (nat 1 / Vec3.dot rh.ray.dir rh.ray.dir) * (-(nat 2 * Vec3.dot (rh.ray.org - s.center) rh.ray.dir) + Q) : XF F).NotFinite := by
    intro Q
    have hB : (Vec3.dot (rh.ray.org - s.center) rh.ray.dir).NotFinite ∨ AllNil rh.ray.dir := by
      rcases h with h | h | h
      · exact .inl ((h.sub _).dot_left _)
      · exact .inl (h.dot _)
      · exact .inr h
    rcases hB with hB | hd
    · have := (hB.mul_right (nat 2)).neg
      exact ⟨(this.sub_left _).mul_right _, (this.add_left _).mul_right _⟩
    · have := (XF.Nil.div (hd.dot hz rh.ray.dir) (nat 1)).mul_right (ofRat (1/2))
      exact ⟨this.mul_left _, this.mul_left _⟩
  unfold EmbSphere.intersect
  simp only
  split
  · rfl
  · rw [(ht _).1.between, if_neg Bool.false_ne_true, (ht _).2.between, if_neg Bool.false_ne_true]

/-- what a NaN coordinate does to the conditions of the rectangle -/
theorem nan_coord (x : XF F) : gt (.nan : XF F) x = false ∧ eq (.nan : XF F) x = false := by
  constructor
  · show XF.lt x .nan = false; cases x <;> rfl
  · show XF.eq .nan x = false; cases x <;> rfl

theorem planeParam_lost (hz : F.post 0 = some 0) {org dir : Vec3 (XF F)} (h : Lost org dir) :
    (-org.z / dir.z).NotFinite ∨ (org + Vec3.smul (-org.z / dir.z) dir).x = .nan := by
  rcases h with h | h | h
  · exact .inl (h.2.2.neg.div_left _)
  · cases e : -org.z with
    | inf s => left; cases dir.z <;> trivial
    | nan => left; cases dir.z <;> trivial
    | fin v s =>
      have hz' := h.2.2
      revert hz'
      cases ez : dir.z with
      | fin _ _ => exact fun h => h.elim
      | nan => exact fun _ => .inl trivial
      | inf b =>
        intro _
        right
        have hn : (XF.fin v s / .inf b : XF F).Nil := rfl
        show org.x + (XF.fin v s / .inf b) * dir.x = .nan
        have hm : (XF.fin v s / .inf b) * dir.x = (.nan : XF F) := by
          have := h.1
          revert this
          show _ → XF.mul (.fin 0 _) dir.x = .nan
          cases dir.x with
          | fin _ _ => exact fun h => h.elim
          | nan => exact fun _ => rfl
          | inf t => exact fun _ => by dsimp only [XF.mul]; rw [if_pos rfl]
        rw [hm]
        show XF.add org.x .nan = .nan
        cases org.x <;> rfl
  · exact .inl (h.2.2.div _)

theorem EmbPlane.intersect_lost (hz : F.post 0 = some 0) (p : EmbPlane (XF F)) (instID : Nat) (rh : RtcRayHit (XF F))
    (h : NotFiniteV rh.ray.org ∨ NotFiniteV rh.ray.dir ∨ AllNil rh.ray.dir) : p.intersect instID rh = rh := by
  have key := planeParam_lost hz (lost_of (c := p.center) hz p.rot.trans h)
  unfold EmbPlane.intersect
  rcases key with key | key
  · simp [key.between]
  · simp [key, nan_coord]

/-- only cylinders record a hit for what is no ray -/
theorem UserGeom.intersect_lost (hz : F.post 0 = some 0) (g : UserGeom (XF F)) (hg : ∀ c, g ≠ .cylinder c) (instID : Nat)
    (rh : RtcRayHit (XF F)) (h : NoRay rh.ray.org rh.ray.dir) : g.intersect instID rh = rh := by
  cases g with
  | sphere s => exact s.intersect_lost hz instID rh (noRay_iff.1 h)
  | plane p => exact p.intersect_lost hz instID rh (noRay_iff.1 h)
  | cylinder c => exact (hg c rfl).elim

/-! ### Cylinders: what is recorded has a distance that is no number -/

/-- nothing is recorded, or something at a distance that is no number -/
def RecordsNoNumber (rh rh' : RtcRayHit (XF F)) : Prop := rh' = rh ∨ rh'.ray.tfar.NotFinite

theorem XF.NotFinite.sqrt {x : XF F} (h : x.NotFinite) : (Scalar.sqrt x : XF F).NotFinite := by
  show (XF.sqrt x).NotFinite
  cases x with
  | fin _ _ => exact h.elim
  | inf s => cases s <;> trivial
  | nan => trivial

theorem norm_smul_lost {t : XF F} {d : Vec3 (XF F)} (h : t.NotFinite ∨ NotFiniteV d) : (Vec3.norm (Vec3.smul t d)).NotFinite := by
  refine XF.NotFinite.sqrt (NotFiniteV.dot ?_ _)
  rcases h with h | h | h | h
  · exact .inl (h.mul_left _)
  · exact .inl (h.mul_right _)
  · exact .inr (.inl (h.mul_right _))
  · exact .inr (.inr (h.mul_right _))

theorem RecordsNoNumber.setAt {t : XF F} {d : Vec3 (XF F)} (h : t.NotFinite ∨ NotFiniteV d) (c : EmbCyl (XF F)) (instID : Nat)
    (rh rh' : RtcRayHit (XF F)) (n : Vec3 (XF F)) : RecordsNoNumber rh (c.setAt instID rh' n t d) := .inr (norm_smul_lost h)

theorem RecordsNoNumber.ite {rh a b : RtcRayHit (XF F)} {p : Prop} [Decidable p] (ha : RecordsNoNumber rh a) (hb : RecordsNoNumber rh b) :
    RecordsNoNumber rh (if p then a else b) := by split <;> assumption

theorem EmbCyl.lateral_lost (hz : F.post 0 = some 0) (c : EmbCyl (XF F)) (instID : Nat) (zlow : XF F) (swap : Bool) {org dir : Vec3 (XF F)}
    (h : Lost org dir) (rh : RtcRayHit (XF F)) : RecordsNoNumber rh (c.lateral instID zlow swap org dir rh) := by
  obtain ⟨h0, h1⟩ := cylT_lost hz h c.a c.b
  refine .ite (.inl rfl) (.ite (.setAt ?_ ..) (.ite (.setAt h1 ..) (.inl rfl)))
  cases swap
  · exact h0
  · exact h1

theorem EmbCyl.aboveBelow_lost (hz : F.post 0 = some 0) (c : EmbCyl (XF F)) (instID : Nat) (cap nz : XF F) (swap : Bool)
    {org dir : Vec3 (XF F)} (h : Lost org dir) (rh : RtcRayHit (XF F)) :
    RecordsNoNumber rh (c.aboveBelow instID cap nz swap org dir rh) :=
  .ite (.inl rfl) (.ite (.inl rfl) (.ite (.setAt (cylCap_lost hz h _) ..) (c.lateral_lost hz instID _ swap h rh)))

theorem EmbCyl.caps_lost (hz : F.post 0 = some 0) (c : EmbCyl (XF F)) (instID : Nat) {org dir : Vec3 (XF F)} (h : Lost org dir)
    (rh : RtcRayHit (XF F)) : RecordsNoNumber rh (c.caps instID org dir rh) :=
  .ite (.setAt (cylCap_lost hz h _) ..) (.ite (.setAt (cylCap_lost hz h _) ..) (.inl rfl))

theorem EmbCyl.inside_lost (hz : F.post 0 = some 0) (c : EmbCyl (XF F)) (instID : Nat) {org dir : Vec3 (XF F)} (h : Lost org dir)
    (rh : RtcRayHit (XF F)) : RecordsNoNumber rh (c.inside instID org dir rh) := by
  obtain ⟨h0, h1⟩ := cylT_lost hz h c.a c.b
  exact .ite (.ite (.inl rfl) (.ite (.inl rfl) (.ite (.setAt h0 ..) (.ite (.setAt h1 ..) (.inl rfl)))))
    (.ite (.ite (.inl rfl) (c.caps_lost hz instID h rh)) (.ite (.inl rfl) (.ite (.setAt h1 ..) (.ite (.setAt h0 ..) (c.caps_lost hz instID h rh)))))

theorem EmbCyl.intersect_lost (hz : F.post 0 = some 0) (c : EmbCyl (XF F)) (instID : Nat) (rh : RtcRayHit (XF F))
    (h : NotFiniteV rh.ray.org ∨ NotFiniteV rh.ray.dir ∨ AllNil rh.ray.dir) : RecordsNoNumber rh (c.intersect instID rh) := by
  have hl := lost_of (c := c.center) hz c.rot.trans h
  unfold EmbCyl.intersect
  refine .ite (c.aboveBelow_lost hz instID _ _ _ hl rh) (.ite (c.aboveBelow_lost hz instID _ _ _ hl rh) ?_)
  have key : ∀ rh', RecordsNoNumber rh rh' → RecordsNoNumber rh (c.inside instID (c.rot.trans.mulVec (rh.ray.org - c.center)) (c.rot.trans.mulVec rh.ray.dir) rh') := by
    intro rh' h'
    rcases c.inside_lost hz instID hl rh' with e | e
    · rw [e]; exact h'
    · exact .inr e
  have lat := RecordsNoNumber.ite (p := (gt (c.rot.trans.mulVec (rh.ray.org - c.center)).z (-c.height / nat 2) &&
      lt (c.rot.trans.mulVec (rh.ray.org - c.center)).z (c.height / nat 2) &&
      gt ((c.rot.trans.mulVec (rh.ray.org - c.center)).x * (c.rot.trans.mulVec (rh.ray.org - c.center)).x * c.b * c.b +
        (c.rot.trans.mulVec (rh.ray.org - c.center)).y * (c.rot.trans.mulVec (rh.ray.org - c.center)).y * c.a * c.a)
        (c.a * c.a * c.b * c.b)) = true) (c.lateral_lost hz instID (-c.height / nat 20) false hl rh) (.inl rfl)
  exact .ite (key _ lat) lat

/-- what is recorded for what is no ray has a distance that is no number -/
theorem UserGeom.records_lost (hz : F.post 0 = some 0) (g : UserGeom (XF F)) (instID : Nat)
    (rh : RtcRayHit (XF F)) (h : NoRay rh.ray.org rh.ray.dir) : RecordsNoNumber rh (g.intersect instID rh) := by
  cases g with
  | sphere s => exact .inl (s.intersect_lost hz instID rh (noRay_iff.1 h))
  | plane p => exact .inl (p.intersect_lost hz instID rh (noRay_iff.1 h))
  | cylinder c => exact c.intersect_lost hz instID rh (noRay_iff.1 h)

end
end Blazert
