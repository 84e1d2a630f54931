/- C96: committing scenes with all roundings returns normally. -/
import Verif.Proofs.CommitRound
import Verif.Props.Total
import Verif.Props.SceneRound

set_option autoImplicit false

namespace Blazert
open Scalar Format

/-- **C96** for `double`.  Committing a scene returns normally, whatever `std::partition` does: all bin indices are in range, all casts
are defined, all lookups succeed and the recursion ends.  The scene can be any combination of meshes, spheres, rectangles and cylinders,
and it may have been committed before.  The numbers the user passed are zero or of magnitude from `2^-450` to `2^1000`; radii are not
negative, sides of rectangles are positive, rows of rotations have lengths of about one or more; and the coordinates of the vertices along
an axis are equal or differ by `2^-44` times the largest of all coordinates.  Everything that is computed from these numbers (boxes,
centers of triangles, extents, bin coordinates) is rounded. -/
theorem C96_double {s : Scene Double} {rs : List Nat} (hist : History s rs) (hmod : s.Moderate (1 / 2 ^ 53) (1 / 2 ^ 450) (2 ^ 1000))
    (part : StdPartition) : ∃ s', s.commit part = .ok (s', true) := by
  have e1 : (1 / 2 ^ 53 : ℚ) = pow2 (-53) := by decide +kernel
  have e2 : (1 / 2 ^ 450 : ℚ) = pow2 (-450) := by decide +kernel
  have e3 : (2 ^ 1000 : ℚ) = pow2 1000 := by decide +kernel
  rw [e1, e2, e3] at hmod
  exact commit_rounding binary64_grid binary64_meshFine binary64_fine' hist hmod part

/-- **C96** for `float` -/
theorem C96_float {s : Scene Single} {rs : List Nat} (hist : History s rs) (hmod : s.Moderate (1 / 2 ^ 24) (1 / 2 ^ 35) (2 ^ 100))
    (part : StdPartition) : ∃ s', s.commit part = .ok (s', true) := by
  have e1 : (1 / 2 ^ 24 : ℚ) = pow2 (-24) := by decide +kernel
  have e2 : (1 / 2 ^ 35 : ℚ) = pow2 (-35) := by decide +kernel
  have e3 : (2 ^ 100 : ℚ) = pow2 100 := by decide +kernel
  rw [e1, e2, e3] at hmod
  exact commit_rounding binary32_grid binary32_meshFine binary32_fine' hist hmod part

/-! ### The distance between vertices is needed -/

/-- six vertices at height 0.7, up to one unit in the last place -/
def flatVertices : List (Vec3 Double) :=
  [dvec 0 0 (7/10), dvec 1 0 (7/10), dvec 0 1 (7/10), dvec 1 1 (7/10), dvec 2 0 (7/10), dvec 2 2 (7/10 + 1/2^53)]

def flatFaces : List (Vec3 Nat) := [⟨0, 1, 2⟩, ⟨1, 3, 2⟩, ⟨1, 4, 3⟩, ⟨4, 5, 3⟩, ⟨2, 3, 5⟩]

theorem commit_error_of_mesh {T : Type} [Scalar T] {s : Scene T} {p : Part (MeshColl T) T (Triangle T)} (hp : s.mesh = some p)
    (part : StdPartition) {e : UB} (h : build part p.coll.toCollection s.options p.nodes = .error e) : s.commit part = .error e := by
  unfold Scene.commit
  rw [hp]
  simp only [commitPart, h]
  rfl

/-- Without that restriction the property is **false**: for a nearly flat mesh of five faces, whose vertices are at height 0.7 up to one unit
in the last place, `commit` casts a negative number to `unsigned`, whatever `std::partition` does.  The rounded center of a triangle at
height 0.7 is one unit in the last place below 0.7, hence outside of the box, and its bin coordinate is -63. -/
theorem C96_flat_mesh : ∃ s rs, History s rs ∧ (∃ p, s.mesh = some p ∧ p.coll.vertices = flatVertices ∧ p.coll.faces = flatFaces) ∧
    ∀ part, s.commit part = .error .badCast := by
  obtain ⟨s, h1, h2⟩ := exists_ok_of_eval (x := runCalls stablePartition [Call.addMesh flatVertices flatFaces])
    (q := fun s => (match s.mesh with
      | none => false
      | some p => decide (p.coll.vertices = flatVertices) && decide (p.coll.faces = flatFaces) &&
        decide (s.options.minLeaf < p.coll.toCollection.size) && decide (0 < s.options.maxDepth) &&
        evalUB (do let b ← computeBoundingBox p.coll.toCollection (List.range p.coll.toCollection.size)
                   findBestSplit p.coll.toCollection (List.range p.coll.toCollection.size) b.1 b.2 s.options.binSize) .badCast) = true)
    (by decide +kernel)
  obtain ⟨rs, hs⟩ := runCalls_history h1
  cases hm : s.mesh with
  | none => rw [hm] at h2; cases h2
  | some p =>
    rw [hm] at h2
    simp only [Bool.and_eq_true, decide_eq_true_eq] at h2
    obtain ⟨⟨⟨⟨a1, a2⟩, a3⟩, a4⟩, a5⟩ := h2
    exact ⟨s, rs, hs, ⟨p, hm, a1, a2⟩, fun part => commit_error_of_mesh hm part
      (build_error_of_split _ _ _ _ _ a3 a4 (error_of_eval a5))⟩

/-! ### Example -/

section
variable {F : Fmt ℚ}

/-- evaluates `XF.Moderate` -/
def checkModerate (lo M : ℚ) : XF F → Bool
  | .fin v _ => decide (F.post v = some v ∧ (v = 0 ∨ (lo ≤ |v| ∧ |v| ≤ M)))
  | _ => false

theorem moderate_of_check {lo M : ℚ} {x : XF F} (h : checkModerate lo M x = true) : x.Moderate lo M := by
  cases x with
  | fin v b => obtain ⟨h1, h2⟩ := of_decide_eq_true h; exact ⟨v, ⟨b, rfl⟩, ⟨v, h1⟩, h2⟩
  | inf b => cases h
  | nan => cases h

/-- the number an `XF` stands for -/
def numOf : XF F → ℚ
  | .fin v _ => v
  | _ => 0

theorem numOf_is {x : XF F} {v : ℚ} (h : x.Is v) : numOf x = v := by
  obtain ⟨b, rfl⟩ := h
  rfl

def checkVec (lo M : ℚ) (v : Vec3 (XF F)) : Bool := checkModerate lo M v.x && checkModerate lo M v.y && checkModerate lo M v.z

theorem vec_of_check {lo M : ℚ} {v : Vec3 (XF F)} (h : checkVec lo M v = true) (k : Fin 3) : (v.get k).Moderate lo M := by
  simp only [checkVec, Bool.and_eq_true] at h
  match k with
  | 0 => exact moderate_of_check h.1.1
  | 1 => exact moderate_of_check h.1.2
  | 2 => exact moderate_of_check h.2

def checkRow (v : Vec3 (XF F)) : Bool := decide (99 / 100 ≤ numOf v.x * numOf v.x + numOf v.y * numOf v.y + numOf v.z * numOf v.z)

theorem row_of_check {v : Vec3 (XF F)} {w : Vec3 ℚ} (h : checkRow v = true) (hv : IsV v w) : 99 / 100 ≤ Vec3.dot w w := by
  have h := of_decide_eq_true h
  rw [numOf_is hv.1, numOf_is hv.2.1, numOf_is hv.2.2] at h
  exact h

def checkMat (lo : ℚ) (m : Mat3 (XF F)) : Bool :=
  checkVec lo 2 m.r0 && checkVec lo 2 m.r1 && checkVec lo 2 m.r2 && checkRow m.r0 && checkRow m.r1 && checkRow m.r2

theorem mat_of_check {lo : ℚ} {m : Mat3 (XF F)} (h : checkMat lo m = true) : m.Moderate lo := by
  simp only [checkMat, Bool.and_eq_true] at h
  obtain ⟨⟨⟨⟨⟨h0, h1⟩, h2⟩, h3⟩, h4⟩, h5⟩ := h
  exact ⟨fun k => ⟨vec_of_check h0 k, vec_of_check h1 k, vec_of_check h2 k⟩,
    fun R hR => ⟨row_of_check h3 hR.1, row_of_check h4 hR.2.1, row_of_check h5 hR.2.2⟩⟩

/-- evaluates `Scene.Moderate`, with all coordinates of vertices bounded by `L` -/
def checkScene (u lo M L : ℚ) (s : Scene (XF F)) : Bool :=
  (match s.mesh with
    | none => true
    | some p => decide (0 ≤ L ∧ lo ≤ L ∧ L ≤ M) && p.coll.vertices.all fun v => checkVec 0 L v &&
      p.coll.vertices.all fun w => (List.finRange 3).all fun k =>
        decide (numOf (v.get k) = numOf (w.get k) ∨ 512 * u * L ≤ |numOf (v.get k) - numOf (w.get k)|)) &&
  (match s.spheres with
    | none => true
    | some p => p.coll.centers.all (checkVec lo M) && p.coll.radii.all fun r => checkModerate lo M r && decide (0 ≤ numOf r)) &&
  (match s.planes with
    | none => true
    | some p => p.coll.centers.all (checkVec lo M) && (p.coll.dxs.all fun r => checkModerate lo M r && decide (0 < numOf r)) &&
      (p.coll.dys.all fun r => checkModerate lo M r && decide (0 < numOf r)) && p.coll.rotations.all (checkMat lo)) &&
  (match s.cylinders with
    | none => true
    | some p => p.coll.centers.all (checkVec lo M) && p.coll.as.all (checkModerate lo M) && p.coll.bs.all (checkModerate lo M) &&
      p.coll.heights.all (checkModerate lo M) && p.coll.rotations.all (checkMat lo))

theorem scene_of_check {u lo M L : ℚ} {s : Scene (XF F)} (h : checkScene u lo M L s = true) : s.Moderate u lo M := by
  unfold checkScene at h
  simp only [Bool.and_eq_true] at h
  obtain ⟨⟨⟨h1, h2⟩, h3⟩, h4⟩ := h
  refine ⟨fun p hp => ?_, fun p hp i x y hx hy => ?_, fun p hp i x y z m hx hy hz hm => ?_, fun p hp i x y z w m hx hy hz hw hm => ?_⟩
  · rw [hp] at h1
    simp only [Bool.and_eq_true, decide_eq_true_eq, List.all_eq_true] at h1
    obtain ⟨⟨L0, L1, L2⟩, h⟩ := h1
    refine ⟨L, L1, L2, fun v hv => ?_⟩
    obtain ⟨k1, k2⟩ := h v hv
    choose f f1 f2 f3 using fun k => vec_of_check k1 k
    have hA : IsV v ⟨f 0, f 1, f 2⟩ := ⟨f1 0, f1 1, f1 2⟩
    have get : ∀ k, (⟨f 0, f 1, f 2⟩ : Vec3 ℚ).get k = f k := fun k => match k with
      | 0 => rfl | 1 => rfl | 2 => rfl
    refine ⟨_, hA, fun k => ?_, fun w hw B hB k => ?_⟩
    · rw [get]
      rcases f3 k with e | e
      · rw [e, abs_zero]; exact L0
      · exact e.2
    · have := k2 w hw k (List.mem_finRange k)
      rw [numOf_is (f1 k), numOf_is (hB.get k)] at this
      rw [get]
      exact this
  · rw [hp] at h2
    simp only [Bool.and_eq_true, decide_eq_true_eq, List.all_eq_true] at h2
    obtain ⟨a, b⟩ := h2
    obtain ⟨b1, b2⟩ := b y (List.mem_of_getElem? hy)
    exact ⟨vec_of_check (a x (List.mem_of_getElem? hx)), moderate_of_check b1, fun r hr => by rwa [numOf_is hr] at b2⟩
  · rw [hp] at h3
    simp only [Bool.and_eq_true, decide_eq_true_eq, List.all_eq_true] at h3
    obtain ⟨⟨⟨a, b⟩, c⟩, d⟩ := h3
    obtain ⟨b1, b2⟩ := b y (List.mem_of_getElem? hy)
    obtain ⟨c1, c2⟩ := c z (List.mem_of_getElem? hz)
    exact ⟨vec_of_check (a x (List.mem_of_getElem? hx)), moderate_of_check b1, moderate_of_check c1,
      mat_of_check (d m (List.mem_of_getElem? hm)), fun r r' hr hr' => by rw [numOf_is hr] at b2; rw [numOf_is hr'] at c2; exact ⟨b2, c2⟩⟩
  · rw [hp] at h4
    simp only [Bool.and_eq_true, List.all_eq_true] at h4
    obtain ⟨⟨⟨⟨a, b⟩, c⟩, d⟩, e⟩ := h4
    exact ⟨vec_of_check (a x (List.mem_of_getElem? hx)), moderate_of_check (b y (List.mem_of_getElem? hy)),
      moderate_of_check (c z (List.mem_of_getElem? hz)), moderate_of_check (d w (List.mem_of_getElem? hw)),
      mat_of_check (e m (List.mem_of_getElem? hm))⟩

end

/-- a mesh of six faces, five spheres, five rectangles and five cylinders, some of them tilted -/
def sampleMany : List (Call Double) :=
  [.addMesh [dvec 0 0 0, dvec 1 0 (1/10), dvec 0 1 (3/10), dvec 1 1 (7/10), dvec 2 0 (-1/3), dvec 2 2 (1/7)]
      [⟨0, 1, 2⟩, ⟨1, 3, 2⟩, ⟨1, 4, 3⟩, ⟨4, 5, 3⟩, ⟨2, 3, 5⟩, ⟨0, 4, 5⟩],
    .addSpheres [dvec 0 0 4, dvec (1/3) 0 0, dvec (7/10) 5 9, dvec 1 1 1, dvec 0 0 0] [dbl (1/10), dbl 1, dbl 0, dbl (2/3), dbl 3],
    .addPlanes [dvec 0 0 4, dvec (1/3) 0 0, dvec (7/10) 5 9, dvec 1 1 1, dvec 0 0 0] [dbl (1/10), dbl 1, dbl 1, dbl (2/3), dbl 3]
      [dbl (1/3), dbl 2, dbl 1, dbl 2, dbl 3] [tilt, tilt, idMat, tilt, idMat],
    .addCylinders [dvec 0 0 4, dvec (1/3) 0 0, dvec (7/10) 5 9, dvec 1 1 1, dvec 0 0 0] [dbl (1/10), dbl 1, dbl 1, dbl (2/3), dbl 3]
      [dbl (1/3), dbl 2, dbl 1, dbl 2, dbl 3] [dbl (1/3), dbl 2, dbl 1, dbl 2, dbl 3] [tilt, tilt, idMat, tilt, idMat]]

/-- A scene with many geometries of all kinds, in which all trees have branches, meets the hypotheses. -/
example : ∃ (s : Scene Double) (rs : List Nat), History s rs ∧ s.Moderate (1 / 2 ^ 53) (1 / 2 ^ 450) (2 ^ 1000) ∧ s.mesh.isSome = true ∧ s.spheres.isSome = true ∧
    s.planes.isSome = true ∧ s.cylinders.isSome = true ∧ ∀ part, ∃ s', s.commit part = .ok (s', true) := by
  obtain ⟨s, h1, h2, h3, h4, h5, h6⟩ := exists_ok_of_eval (x := runCalls stablePartition sampleMany)
    (q := fun s => checkScene (1 / 2 ^ 53) (1 / 2 ^ 450) (2 ^ 1000) 2 s = true ∧ s.mesh.isSome = true ∧ s.spheres.isSome = true ∧
      s.planes.isSome = true ∧ s.cylinders.isSome = true) (by decide +kernel)
  obtain ⟨rs, hs⟩ := runCalls_history h1
  have hm := scene_of_check h2
  exact ⟨s, rs, hs, hm, h3, h4, h5, h6, C96_double hs hm⟩

end Blazert
