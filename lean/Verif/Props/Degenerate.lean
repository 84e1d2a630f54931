/- C101: rays that are no rays hit nothing. -/
import Verif.Proofs.Degenerate
import Verif.Props.Combine

set_option autoImplicit false

namespace Blazert
open Scalar

section
variable {K : Type} [Field K] [LinearOrder K] [IsStrictOrderedRing K] [FloorRing K] {F : Fmt K}

/-- **C101**, general.  In any format in which zero is a number and the tolerance of the triangle test too, for every committed
scene with geometry of any kind and any values: if a query reports a hit, then the components of the origin of the ray are numbers,
and so are the components of its direction, which are not all zero. -/
theorem C101_hit_needs_ray (hz : F.post 0 = some 0) (ht : ∃ x, (nat 4 * eps : XF F).Is x) {s : Scene (XF F)} {rs : List Nat}
    (hist : History s rs) (hc : s.committed = true) (ray : Ray (XF F)) (rh0 out : RayHit (XF F))
    (h : s.intersect1 ray rh0 = .ok (true, out)) :
    ∃ o d, IsV ray.origin o ∧ IsV ray.direction d ∧ d ≠ ⟨0, 0, 0⟩ := by
  have ht' : ¬ (nat 4 * eps : XF F).NotFinite := by obtain ⟨x, b, e⟩ := ht; rw [e]; exact id
  obtain ⟨o, ho⟩ := isV_of_finite (v := ray.origin) fun e => intersect1_lost hz ht' hist hc ray (.inl e) rh0 out h
  obtain ⟨d, hd⟩ := isV_of_finite (v := ray.direction) fun e => intersect1_lost hz ht' hist hc ray (.inr (.inl e)) rh0 out h
  refine ⟨o, d, ho, hd, fun e => intersect1_lost hz ht' hist hc ray (.inr (.inr ?_)) rh0 out h⟩
  subst e
  obtain ⟨⟨_, e1⟩, ⟨_, e2⟩, ⟨_, e3⟩⟩ := hd
  exact ⟨e1 ▸ rfl, e2 ▸ rfl, e3 ▸ rfl⟩

/-- **C101**, general, for rays made by the constructor: if a query reports a hit, then the length of the direction passed, as
computed, is a number other than zero. -/
theorem C101_hit_needs_length (hz : F.post 0 = some 0) (ht : ∃ x, (nat 4 * eps : XF F).Is x) {s : Scene (XF F)} {rs : List Nat}
    (hist : History s rs) (hc : s.committed = true) (origin direction : Vec3 (XF F)) (minHit maxHit : XF F) (anyHit : Bool)
    (rh0 out : RayHit (XF F)) (h : s.intersect1 (Ray.make origin direction minHit maxHit anyHit) rh0 = .ok (true, out)) :
    ∃ l, (Vec3.norm direction).Is l ∧ l ≠ 0 := by
  have ht' : ¬ (nat 4 * eps : XF F).NotFinite := by obtain ⟨x, b, e⟩ := ht; rw [e]; exact id
  by_contra hl
  exact intersect1_lost hz ht' hist hc _ (.inr (normalize_lost direction hl)) rh0 out h

end

/-- **C101** for `double`: a query for a ray made by the constructor reports a hit only if the components of the origin are
numbers and the length of the direction passed, as computed, is a number other than zero.  For all other rays it
reports no hit and leaves the record as it is. -/
theorem C101_double {s : Scene Double} {rs : List Nat} (hist : History s rs) (hc : s.committed = true)
    (origin direction : Vec3 Double) (minHit maxHit : Double) (anyHit : Bool) (rh0 out : RayHit Double) (hit : Bool)
    (h : s.intersect1 (Ray.make origin direction minHit maxHit anyHit) rh0 = .ok (hit, out)) :
    ((∃ o l, IsV origin o ∧ (Vec3.norm direction).Is l ∧ l ≠ 0)) ∨ (hit = false ∧ out = rh0) := by
  cases hit with
  | true =>
    left
    have ht : ∃ x, (nat 4 * eps : Double).Is x := ⟨4 * Format.binary64.eps, false, by decide +kernel⟩
    obtain ⟨o, _, ho, -⟩ := C101_hit_needs_ray binary64_gradual.zero ht hist hc _ rh0 out h
    obtain ⟨l, hl, h0⟩ := C101_hit_needs_length binary64_gradual.zero ht hist hc origin direction minHit maxHit anyHit rh0 out h
    exact ⟨o, l, ho, hl, h0⟩
  | false => exact .inr ⟨rfl, ((C78_closest_answer (XF.lawfulLt _) s _ rh0 out false h).2 rfl).1⟩

/-- **C101** for `float`. -/
theorem C101_float {s : Scene Single} {rs : List Nat} (hist : History s rs) (hc : s.committed = true)
    (origin direction : Vec3 Single) (minHit maxHit : Single) (anyHit : Bool) (rh0 out : RayHit Single) (hit : Bool)
    (h : s.intersect1 (Ray.make origin direction minHit maxHit anyHit) rh0 = .ok (hit, out)) :
    ((∃ o l, IsV origin o ∧ (Vec3.norm direction).Is l ∧ l ≠ 0)) ∨ (hit = false ∧ out = rh0) := by
  cases hit with
  | true =>
    left
    have ht : ∃ x, (nat 4 * eps : Single).Is x := ⟨4 * Format.binary32.eps, false, by decide +kernel⟩
    obtain ⟨o, _, ho, -⟩ := C101_hit_needs_ray binary32_gradual.zero ht hist hc _ rh0 out h
    obtain ⟨l, hl, h0⟩ := C101_hit_needs_length binary32_gradual.zero ht hist hc origin direction minHit maxHit anyHit rh0 out h
    exact ⟨o, l, ho, hl, h0⟩
  | false => exact .inr ⟨rfl, ((C78_closest_answer (XF.lawfulLt _) s _ rh0 out false h).2 rfl).1⟩

/-- the sample scene with a sphere and a mesh: a ray is reported to hit; the same ray with its direction scaled by `1e-200` is not,
since the length of the direction is computed as zero -/
example : ∃ (s : Scene Double), runCalls stablePartition sampleBoth = .ok s ∧
    evalOk (s.intersect1 (Ray.make' (dvec (1/4) (1/8) 8) (dvec 0 0 (-1))) RayHit.fresh) (fun r => r.1) = true ∧
    evalOk (s.intersect1 (Ray.make' (dvec (1/4) (1/8) 8) (dvec 0 0 (-1 / 10 ^ 200))) RayHit.fresh) (fun r => !r.1) = true ∧
    Vec3.norm (dvec 0 0 (-1 / 10 ^ 200)) = dbl 0 := by
  obtain ⟨s, h1, h2, h3⟩ := exists_ok_of_eval (x := runCalls stablePartition sampleBoth)
    (q := fun s => evalOk (s.intersect1 (Ray.make' (dvec (1/4) (1/8) 8) (dvec 0 0 (-1))) RayHit.fresh) (fun r => r.1) = true ∧
      evalOk (s.intersect1 (Ray.make' (dvec (1/4) (1/8) 8) (dvec 0 0 (-1 / 10 ^ 200))) RayHit.fresh) (fun r => !r.1) = true)
    (by decide +kernel)
  exact ⟨s, h1, h2, h3, by decide +kernel⟩

/-- the theorem applies to it -/
example {s : Scene Double} {rs : List Nat} (hist : History s rs) (hc : s.committed = true) (rh0 out : RayHit Double) (hit : Bool)
    (h : s.intersect1 (Ray.make (dvec (1/4) (1/8) 8) (dvec 0 0 (-1 / 10 ^ 200)) (dbl 0) (dbl 100) false) rh0 = .ok (hit, out)) :
    hit = false ∧ out = rh0 := by
  rcases C101_double hist hc _ _ _ _ _ rh0 out hit h with ⟨o, l, -, hl, h0⟩ | h
  · have e : Vec3.norm (dvec 0 0 (-1 / 10 ^ 200)) = .fin 0 false := by decide +kernel
    rw [e] at hl
    obtain ⟨b, e'⟩ := hl
    cases e'
    exact (h0 rfl).elim
  · exact h

end Blazert
