/- Property theorems C64, C65: the references a scene keeps to the caller's containers. -/
import Verif.Proofs.MemoryStale

set_option autoImplicit false

namespace Blazert
open Scalar

section
variable {T : Type} [Scalar T]

/-! ### C64 -/

/-- **C64** (any arithmetic, any program).  As long as the caller leaves the containers alone that the scene refers to, the
scene behaves exactly like one that copied what it was passed: the same undefined behaviour, or else the same answers to all
queries. -/
theorem C64_as_if_copied (mem : Memory T) (es : List (Event T)) (h : LeftAlone mem Held.nothing es) :
    (runEvents (mem, RefScene.init) es).map (fun st => fun ray rh => st.2.intersect1 st.1 ray rh) =
      (runCopies (mem, Scene.init) es).map (fun st => st.2.intersect1) := by
  refine (SceneSim.run h _ _ (SceneSim.init mem)).map_eq ?_
  rintro ⟨m1, r⟩ ⟨m2, s⟩ ⟨m', rfl, rfl, hs⟩
  funext ray rh
  exact hs.intersect1 ray rh

/-- **C64**.  The copying scene is one of those that the other theorems are about. -/
theorem C64_copy_is_history (mem : Memory T) (es : List (Event T)) (m : Memory T) (s : Scene T)
    (h : runCopies (mem, Scene.init) es = .ok (m, s)) : ∃ rs, History s rs := runCopies_history .init h

/-! ### C65 -/

/-- **C65**, what does hold (any arithmetic, any scene): a query reads nothing but the elements that primitives refer to,
the faces of the mesh and the centers of the spheres; all other changes of the caller's memory are harmless.  Missing: other
changes, which are not. -/
theorem C65_queries_read_partial (r : RefScene T) (m m' : Memory T) (h : SameForQueries r m m') (ray : Ray T) (rh : RayHit T) :
    r.intersect1 m' ray rh = r.intersect1 m ray rh := by
  have em := intersectRefs_congr (f := MeshRefs.ix m) (f' := MeshRefs.ix m') (load := TriRef.load m) (load' := TriRef.load m')
    (always := true) (ray := ray) (o := r.mesh) fun p hp => by
      obtain ⟨h1, h2⟩ := h.mesh p hp
      refine ⟨fun n hn q hq => ?_, ?_⟩
      · unfold TriRef.load; rw [h2 n hn q hq]
      · unfold MeshRefs.ix; rw [h1]
  have es := intersectRefs_congr (f := SphereRefs.ix m) (f' := SphereRefs.ix m') (load := SphereRef.load m)
    (load' := SphereRef.load m') (always := false) (ray := ray) (o := r.spheres) fun p hp => by
      obtain ⟨h1, h2⟩ := h.spheres p hp
      refine ⟨fun n hn q hq => ?_, ?_⟩
      · unfold SphereRef.load; rw [h2 n hn q hq]
      · unfold SphereRefs.ix; rw [h1]
  have ep := intersectRefs_congr (C := PlaneRefs T) (f := fun _ => planeIx) (f' := fun _ => planeIx) (load := PlaneRef.load m)
    (load' := PlaneRef.load m') (always := false) (ray := ray) (o := r.planes) fun p hp => by
      refine ⟨fun n hn q hq => ?_, rfl⟩
      obtain ⟨h1, h2⟩ := h.planes p hp n hn q hq
      unfold PlaneRef.load; rw [h1, h2]
  have ec := intersectRefs_congr (C := CylRefs T) (f := fun _ => cylIx) (f' := fun _ => cylIx) (load := CylRef.load m)
    (load' := CylRef.load m') (always := false) (ray := ray) (o := r.cylinders) fun p hp => by
      refine ⟨fun n hn q hq => ?_, rfl⟩
      obtain ⟨h1, h2, h3, h4, h5⟩ := h.cylinders p hp n hn q hq
      unfold CylRef.load; rw [h1, h2, h3, h4, h5]
  unfold RefScene.intersect1
  simp only [em, es, ep, ec]

/-- **C65**, what does hold: radii, `dxs` and `dys` are copied by `commit`, so that after it the caller may do with all vectors
of numbers whatever it likes, if there are no cylinders (which refer to theirs). -/
theorem C65_numbers_partial (r : RefScene T) (hc : r.cylinders = none) (m : Memory T) (nums : Store T) (ray : Ray T) (rh : RayHit T) :
    r.intersect1 { m with nums } ray rh = r.intersect1 m ray rh :=
  C65_queries_read_partial r m { m with nums } ⟨fun _ _ => ⟨rfl, fun _ _ _ _ => rfl⟩, fun _ _ => ⟨rfl, fun _ _ _ _ => rfl⟩,
    fun _ _ _ _ _ _ => ⟨rfl, rfl⟩, fun p hp => by rw [hc] at hp; cases hp⟩ ray rh

/-- **C65 is false**: adding an element to a container between `add_*` and `commit` makes `commit` undefined (it accesses
boxes that were never computed), whatever the element, and whether or not the buffer is reallocated. -/
theorem C65_extended_before_commit (m m' : Memory T) (part : StdPartition) :
    (∀ c d st l l', runEvents (m, RefScene.init) [.addSpheres c d] = .ok st → m.vecs.read c = .ok l → m'.vecs.read c = .ok l' →
      l.length < l'.length → runEvents (m, RefScene.init) [.addSpheres c d, .change m', .commit part] = .error .oobIndex) ∧
    (∀ c x y d st l l', runEvents (m, RefScene.init) [.addPlanes c x y d] = .ok st → m.vecs.read c = .ok l →
      m'.vecs.read c = .ok l' → l.length < l'.length →
      runEvents (m, RefScene.init) [.addPlanes c x y d, .change m', .commit part] = .error .oobIndex) ∧
    (∀ c x y z d st l l', runEvents (m, RefScene.init) [.addCylinders c x y z d] = .ok st → m.vecs.read c = .ok l →
      m'.vecs.read c = .ok l' → l.length < l'.length →
      runEvents (m, RefScene.init) [.addCylinders c x y z d, .change m', .commit part] = .error .oobIndex) ∧
    (∀ v f st l l', runEvents (m, RefScene.init) [.addMesh v f] = .ok st → m.faces.read f = .ok l → m'.faces.read f = .ok l' →
      l.length < l'.length → runEvents (m, RefScene.init) [.addMesh v f, .change m', .commit part] = .error .oobIndex) := by
  refine ⟨fun c d st l l' h h1 h2 hlt => ?_, fun c x y d st l l' h h1 h2 hlt => ?_, fun c x y z d st l l' h h1 h2 hlt => ?_,
    fun v f st l l' h h1 h2 hlt => ?_⟩
  · exact extended_spheres h h1 h2 hlt part
  · exact extended_planes h h1 h2 hlt part
  · exact extended_cylinders h h1 h2 hlt part
  · exact extended_mesh h h1 h2 hlt part

/-- **C65 is false**: if the vectors of points are destroyed or reallocated, so that the buffers they had are freed, every
query that reported a hit becomes undefined. -/
theorem C65_freed (hlt : IrreflLt T) (mem : Memory T) (es : List (Event T)) (h : LeftAlone mem Held.nothing es) (m m' : Memory T)
    (r : RefScene T) (hr : runEvents (mem, RefScene.init) es = .ok (m, r))
    (hf : ∀ c b, (heldBy es).points c → m.vecs.buffer c = some b → m'.vecs.elems b = none) (ray : Ray T) (rh rh' : RayHit T)
    (hit : r.intersect1 m ray rh = .ok (true, rh')) : r.intersect1 m' ray rh = .error .dangling := by
  have := SceneSim.run h _ _ (SceneSim.init mem)
  rw [hr] at this
  cases hc : runCopies (mem, Scene.init) es with
  | error e => rw [hc] at this; cases this
  | ok b =>
    rw [hc] at this
    cases this with
    | ok this =>
      obtain ⟨m1, h1, -, hs⟩ := this
      obtain rfl : m = m1 := h1
      exact hs.freed hlt hf hit

end

/-! ### Examples -/

/-- a container of points with the elements `l` in buffer 0, and a spare empty container -/
def sampleStore {α : Type} (l : List α) : Store α where
  buffer := fun x => if x = 0 then some 0 else none
  elems := fun b => if b = 0 then some l else none

/-- one sphere of radius 1 at (0, 0, 5) -/
def sphereMemory : Memory Double := ⟨sampleStore [dvec 0 0 5], sampleStore [dbl 1], sampleStore [], sampleStore []⟩

/-- its center is overwritten: (10, 0, 5) -/
def movedMemory : Memory Double := { sphereMemory with vecs := sphereMemory.vecs.write 0 0 (dvec 10 0 5) }

/-- run a program and ask a query -/
def askRefs (mem : Memory Double) (es : List (Event Double)) (ray : Ray Double) : Run (Bool × RayHit Double) := do
  let st ← runEvents (mem, RefScene.init) es
  st.2.intersect1 st.1 ray RayHit.fresh

/-- a ray in z direction from (x, 0, 0) -/
def upRay (x : ℚ) : Ray Double := Ray.make (dvec x 0 0) (dvec 0 0 1) (dbl 0) (dbl 100) false

/-- **C65 is false** (double arithmetic): a sphere is moved by writing to the caller's vector after `commit`.  The sphere
that is tested has moved, its box has not: the query misses it, and neither is it found where it was.  A scene built after
the change reports the hit. -/
theorem C65_moved_is_missed :
    (∃ r, askRefs sphereMemory [.addSpheres 0 0, .commit stablePartition] (upRay 0) = .ok r ∧ r.1 = true ∧
      r.2.hitDistance = dbl 4) ∧
    (∃ r, askRefs sphereMemory [.addSpheres 0 0, .commit stablePartition, .change movedMemory] (upRay 0) = .ok r ∧ r.1 = false) ∧
    (∃ r, askRefs sphereMemory [.addSpheres 0 0, .commit stablePartition, .change movedMemory] (upRay 10) = .ok r ∧ r.1 = false) ∧
    ∃ r, askRefs sphereMemory [.change movedMemory, .addSpheres 0 0, .commit stablePartition] (upRay 10) = .ok r ∧ r.1 = true ∧
      r.2.hitDistance = dbl 4 :=
  ⟨exists_ok_of_eval (by decide +kernel), exists_ok_of_eval (by decide +kernel), exists_ok_of_eval (by decide +kernel),
    exists_ok_of_eval (by decide +kernel)⟩

/-- the same memory with a second vector of points -/
def moreMemory : Memory Double :=
  { sphereMemory with
    vecs := ⟨fun x => if x = 1 then some 1 else sphereMemory.vecs.buffer x,
      fun b => if b = 1 then some [dvec 1 2 3] else sphereMemory.vecs.elems b⟩ }

/-- a program that adds a sphere, allocates an unrelated vector, commits and moves the point in that vector -/
def sampleProgram : List (Event Double) :=
  [.addSpheres 0 0, .change moreMemory, .commit stablePartition,
    .change { moreMemory with vecs := moreMemory.vecs.write 1 0 (dvec 7 7 7) }]

theorem sampleProgram_leftAlone : LeftAlone sphereMemory Held.nothing sampleProgram := by
  refine .call _ _ _ _ (fun _ => nofun) (.change _ _ _ _ ⟨nofun, ?_, nofun, nofun⟩ (.call _ _ _ _ (fun _ => nofun)
    (.change _ _ _ _ ⟨nofun, ?_, nofun, nofun⟩ (.nil _ _))))
  all_goals
    intro c r h
    cases h
    refine ⟨⟨rfl, ?_⟩, rfl, fun _ _ => rfl⟩
    intro b hb
    cases hb
    rfl

/-- `C64_as_if_copied` applies to it, and the scenes answer with a hit -/
example : ∃ r, askRefs sphereMemory sampleProgram (upRay 0) = .ok r ∧ r.1 = true ∧ r.2.hitDistance = dbl 4 :=
  exists_ok_of_eval (by decide +kernel)

/-- `C64_copy_is_history` applies too -/
example : ∃ st, runCopies (sphereMemory, Scene.init) sampleProgram = .ok st := by
  have h := exists_ok_of_eval (x := askRefs sphereMemory sampleProgram (upRay 0)) (q := fun r => r.1 = true) (by decide +kernel)
  obtain ⟨r, h, -⟩ := h
  unfold askRefs at h
  obtain ⟨st, h1, -⟩ := run_bind_eq_ok.1 h
  have := SceneSim.run sampleProgram_leftAlone _ _ (SceneSim.init sphereMemory)
  rw [h1] at this
  cases hc : runCopies (sphereMemory, Scene.init) sampleProgram with
  | error e => rw [hc] at this; cases this
  | ok st => exact ⟨st, rfl⟩

/-- `C65_queries_read_partial` applies, for instance, if the spheres' vector of points moves to another object, the leaves
keep their meaning, but not if it is destroyed; the change of memory here is one of unrelated vectors -/
example (r : RefScene Double) (h : ∀ p, r.spheres = some p → p.coll.centers = 0 ∧ ∀ n ∈ p.nodes, ∀ t ∈ n.prims, t.center.buf = 0)
    (h1 : r.mesh = none) (h2 : r.planes = none) (h3 : r.cylinders = none) : SameForQueries r sphereMemory moreMemory := by
  refine ⟨by rw [h1]; nofun, fun p hp => ⟨?_, fun n hn t ht => ?_⟩, by rw [h2]; nofun, by rw [h3]; nofun⟩
  · rw [(h p hp).1]; rfl
  · unfold Store.deref
    rw [(h p hp).2 n hn t ht]; rfl

/-- `C65_extended_before_commit` applies to spheres: `push_back` without and with reallocation -/
example : (∃ st, runEvents (sphereMemory, RefScene.init) [.addSpheres 0 0] = .ok st) ∧
    sphereMemory.vecs.read 0 = .ok [dvec 0 0 5] ∧
    (sphereMemory.vecs.push 0 (dvec 1 1 1)).read 0 = .ok [dvec 0 0 5, dvec 1 1 1] ∧
    (sphereMemory.vecs.regrow 0 7 (dvec 1 1 1)).read 0 = .ok [dvec 0 0 5, dvec 1 1 1] := by
  refine ⟨?_, rfl, rfl, rfl⟩
  obtain ⟨st, h, -⟩ := exists_ok_of_eval (x := runEvents (sphereMemory, RefScene.init) [.addSpheres 0 0])
    (q := fun st => st.2.committed = false) (by decide +kernel)
  exact ⟨st, h⟩

/-- `C65_freed` applies: after the first three events of the program the vector is destroyed, or grows -/
example : (∀ c b, (heldBy ([.addSpheres 0 0, .change moreMemory, .commit stablePartition] : List (Event Double))).points c → moreMemory.vecs.buffer c = some b →
      (moreMemory.vecs.destroy 0).elems b = none) ∧
    (∀ c b, (heldBy ([.addSpheres 0 0, .change moreMemory, .commit stablePartition] : List (Event Double))).points c → moreMemory.vecs.buffer c = some b →
      (moreMemory.vecs.regrow 0 7 (dvec 1 1 1)).elems b = none) ∧ IrreflLt Double := by
  refine ⟨?_, ?_, XF.irreflLt _⟩
  all_goals
    intro c b hc hb
    rcases hc with ⟨_, h⟩ | ⟨_, h⟩ | ⟨_, _, _, h⟩ | ⟨_, _, _, _, h⟩ <;> cases h
    cases hb
    rfl

end Blazert
