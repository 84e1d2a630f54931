/- Property theorems C99, C100: the references an Embree scene keeps to the caller's containers. -/
import Verif.Proofs.EmbreeMemory
import Verif.Props.EmbreeFound

set_option autoImplicit false

namespace Blazert
open Scalar

section
variable {T : Type} [Scalar T]

/-! ### C99 -/

/-- **C99** (any arithmetic, any program, any Embree).  As long as the caller leaves alone the vectors of points, matrices and faces it
passed, the scene behaves exactly like one that copied everything: the same undefined behaviour in the calls, or else the same possible
outcomes of all queries.  Vectors of numbers (radii, side lengths, semi-axes, heights) may be changed or destroyed right after the call. -/
theorem C99_as_if_copied (l : Layout) (rtc : Rtc T) (mem : Memory T) (es : List (EmbEvent T)) (h : EmbLeftAlone mem EmbHeld.nothing es) :
    (runEmb l (mem, EmbRefScene.init) es).map (fun st => fun ray rh o => st.2.Intersect1 l rtc st.1 ray rh o) =
      (runEmbCopies l (mem, EmbScene.init) es).map (fun st => st.2.Intersect1 rtc) := by
  refine (EmbSim.run h (EmbSim.init l mem)).map_eq ?_
  rintro ⟨m1, r⟩ ⟨m2, s⟩ ⟨-, hs⟩
  funext ray rh o
  exact propext (hs.intersect1 rtc ray rh o)

/-- **C99**.  The copying scene is one of those that the other theorems are about. -/
theorem C99_copy_is_run (l : Layout) (mem : Memory T) (es : List (EmbEvent T)) (m : Memory T) (s : EmbScene T)
    (h : runEmbCopies l (mem, EmbScene.init) es = .ok (m, s)) : ∃ calls, embRun l .init calls = .ok s :=
  runEmbCopies_run es _ _ ⟨[], rfl⟩ h

/-! ### C100 -/

/-- **C100**, what does hold (any arithmetic, any scene): a query reads nothing but the elements that objects refer to and the buffers of
meshes; all other changes of the caller's memory are harmless.  Missing: other changes, which are not. -/
theorem C100_queries_read_partial (l : Layout) (rtc : Rtc T) (r : EmbRefScene T) (m m' : Memory T) (h : EmbSameForQueries r m m')
    (ray : Ray T) (rh : RayHit T) (o : Run (Bool × RayHit T)) : r.Intersect1 l rtc m' ray rh o ↔ r.Intersect1 l rtc m ray rh o := by
  unfold EmbRefScene.Intersect1
  rw [process_congr h]

/-- **C100**, what does hold: before the commit, points, matrices and faces may be overwritten; the scene is the one that is obtained if
the new values are there from the start. -/
theorem C100_written_before_commit_partial (l : Layout) (m m' : Memory T) (hv : SameShape m.vecs m'.vecs) (hm : SameShape m.mats m'.mats)
    (hf : SameShape m.faces m'.faces) (hn : m'.nums = m.nums) (adds rest : List (EmbEvent T)) (ha : ∀ e ∈ adds, e.Adds) :
    runEmb l (m, EmbRefScene.init) (adds ++ .change m' :: rest) = runEmb l (m', EmbRefScene.init) (adds ++ rest) := by
  have := run_shape (l := l) hv hm hf hn adds EmbRefScene.init ha
  unfold runEmb at this ⊢
  rw [List.foldlM_append, List.foldlM_append]
  refine RunRel.eq (this.bind fun a b hab => ?_)
  obtain ⟨m1, r1⟩ := a
  obtain ⟨m2, r2⟩ := b
  obtain ⟨h1, h2, h3⟩ := hab
  simp only at h1 h2 h3
  rw [h1, h2, h3]
  exact .refl _

/-- **C100 is false**: if the vectors of points are destroyed or reallocated, so that the buffers they had are freed, no query ever reports
a hit again; if a query could report a hit before, it is now undefined in some execution; and so is the first commit, if anything was added. -/
theorem C100_freed (l : Layout) (rtc : Rtc T) (mem : Memory T) (es : List (EmbEvent T)) (h : EmbLeftAlone mem EmbHeld.nothing es)
    (m m' : Memory T) (r : EmbRefScene T) (hr : runEmb l (mem, EmbRefScene.init) es = .ok (m, r))
    (hf : ∀ x ∈ (embHeldBy es).vecs, ∀ b, m.vecs.buffer x = some b → m'.vecs.elems b = none) :
    (∀ ray rh o, r.Intersect1 l rtc m' ray rh o → o = .error .dangling ∨ o = .error .notCommitted ∨ o = .ok (false, rh)) ∧
    (∀ ray rh out, r.Intersect1 l rtc m ray rh (.ok (true, out)) → r.Intersect1 l rtc m' ray rh (.error .dangling)) ∧
    (r.committed = false → r.attached ≠ [] → r.commit l m' = .error .dangling) := by
  have := EmbSim.run h (EmbSim.init l mem)
  rw [hr] at this
  generalize runEmbCopies l (mem, EmbScene.init) es = y at this
  cases this with
  | ok hst =>
    obtain ⟨-, hs⟩ := hst
    exact ⟨fun ray rh o ho => hs.intersect1_freed hf ho, fun ray rh out ho => hs.hit_freed hf ho, fun hc hne => hs.commit_freed hf hc hne⟩

end

/-! ### Examples -/

/-- containers with these elements, numbered like their buffers -/
def sampleCells {α : Type} (ls : List (List α)) : Store α where
  buffer := fun x => if x < ls.length then some x else none
  elems := fun b => ls[b]?

/-- one sphere of radius 1 at (0, 0, 5) -/
def embSphereMemory : Memory Single := ⟨sampleCells [[svec 0 0 5]], sampleCells [[sgl 1]], sampleCells [], sampleCells []⟩

/-- its center is overwritten: (10, 0, 5) -/
def embMovedMemory : Memory Single := { embSphereMemory with vecs := embSphereMemory.vecs.write 0 0 (svec 10 0 5) }

/-- a ray in z direction from (x, 0, 0) -/
def embUpRay (x : ℚ) : Ray Single := Ray.make (svec x 0 0) (svec 0 0 1) (sgl 0) (sgl 100) false

/-- the laziest of the careful Embrees: it saves a callback whenever the ray does not meet the bounds -/
def lazyRtc : Rtc Single where
  tri := fun _ _ _ rh => rh
  miss := fun b r => ∀ o d m M mn mx, IsV r.org o → IsV r.dir d → r.tnear.Is m → r.tfar.Is M → IsV b.1 mn → IsV b.2 mx →
    ∀ t, m ≤ t → t ≤ M → ¬ InBox mn mx (along o d t)

theorem lazyRtc_careful : lazyRtc.Careful := ⟨fun _ _ h => h, fun _ _ _ _ => .inl rfl⟩

/-- a scene with one sphere, committed while its center was `c` -/
def embSphereScene (c : Vec3 Single) : EmbRefScene Single :=
  ⟨[some (.sphere ⟨⟨0, 0⟩, sgl 1, 0⟩)], [.user 0], some 0, none, none, true, some [some (EmbSphere.bounds ⟨c, sgl 1, 0⟩)]⟩

theorem embSphere_run (l : Layout) {m : Memory Single} {c : Vec3 Single} (h0 : m.vecs.data 0 = .ok (0, [c]))
    (h1 : m.nums.data 0 = .ok (0, [sgl 1])) (rest : List (EmbEvent Single)) :
    runEmb l (m, EmbRefScene.init) (.addSpheres 0 0 :: .commit :: rest) = runEmb l (m, embSphereScene c) rest := by
  unfold runEmb
  rw [List.foldlM_cons]
  have a1 : EmbEvent.exec l (m, EmbRefScene.init) (.addSpheres 0 0) = .ok (m, ⟨[some (.sphere ⟨⟨0, 0⟩, sgl 1, 0⟩)], [.user 0], some 0, none,
      none, false, none⟩) := by
    simp only [EmbEvent.exec, EmbRefScene.addSpheres, Store.read, Store.elemRef, Store.elem, h0, h1]; rfl
  rw [a1, run_bind_ok, List.foldlM_cons]
  have a2 : EmbEvent.exec l (m, ⟨[some (.sphere ⟨⟨0, 0⟩, sgl 1, 0⟩)], [.user 0], some 0, none, none, false, none⟩) .commit =
      .ok (m, embSphereScene c) := by
    have hd : m.vecs.deref ⟨0, 0⟩ = .ok c := Store.deref_ok h0 ⟨rfl, rfl⟩
    simp only [EmbEvent.exec, EmbRefScene.commit, Bool.false_eq_true, if_false, List.mapM_cons, List.mapM_nil, EmbRefScene.rtcBounds,
      EmbRefScene.deref, List.getElem?_cons_zero, UserRef.load, hd]
    rfl
  rw [a2, run_bind_ok]

/-- the possible outcomes of queries of that scene, when the center is `c'` -/
theorem embSphere_intersect1 (l : Layout) (rtc : Rtc Single) {m : Memory Single} (c : Vec3 Single) {c' : Vec3 Single}
    (h0 : m.vecs.data 0 = .ok (0, [c'])) (ray : Ray Single) (rh : RayHit Single) (o : Run (Bool × RayHit Single)) :
    (embSphereScene c).Intersect1 l rtc m ray rh o ↔
      o = .ok (((EmbSphere.intersect ⟨c', sgl 1, 0⟩ invalidId ray.toRtc)).copyTo rh) ∨
      rtc.miss (EmbSphere.bounds ⟨c, sgl 1, 0⟩) ray.toRtc.ray ∧ o = .ok (false, rh) := by
  have hd : m.vecs.deref ⟨0, 0⟩ = .ok c' := Store.deref_ok h0 ⟨rfl, rfl⟩
  have hp : ∀ x, (embSphereScene c).process l rtc m 0 x = .ok (EmbSphere.intersect ⟨c', sgl 1, 0⟩ invalidId x) := by
    intro x
    have hg : (embSphereScene c).deref m 0 = .ok (.sphere ⟨c', sgl 1, 0⟩) := by
      simp only [EmbRefScene.deref, embSphereScene, List.getElem?_cons_zero, UserRef.load, hd]; rfl
    show ((embSphereScene c).deref m 0 >>= fun g => pure (g.intersect invalidId x)) = _
    rw [hg]; rfl
  constructor
  · rintro ⟨order, r', hperm, ht, rfl⟩
    have : order = [0] := List.perm_singleton.1 hperm
    subst this
    cases ht with
    | call h rest => rw [hp] at h; cases h; cases rest; exact .inl rfl
    | fail h => rw [hp] at h; cases h
    | skip h rest =>
      obtain ⟨b, hb, hm⟩ := h
      cases hb
      cases rest
      exact .inr ⟨hm, by simp only [Except.map, copyTo_toRtc]⟩
  · rintro (rfl | ⟨hm, rfl⟩)
    · exact ⟨[0], _, .refl _, .call (hp _) (.done _), rfl⟩
    · exact ⟨[0], _, .refl _, .skip ⟨_, rfl, hm⟩ (.done _), by simp only [Except.map, copyTo_toRtc]⟩

theorem embMoved_missed : lazyRtc.miss (EmbSphere.bounds ⟨svec 0 0 5, sgl 1, 0⟩) (embUpRay 10).toRtc.ray := by
  intro o d m M mn mx ho hd hm hM hmn hmx t h1 h2 hb
  have eo : (embUpRay 10).toRtc.ray.org.x.Is 10 := ⟨false, by decide +kernel⟩
  have ed : (embUpRay 10).toRtc.ray.dir.x.Is 0 := ⟨false, by decide +kernel⟩
  have em : (EmbSphere.bounds (⟨svec 0 0 5, sgl 1, 0⟩ : EmbSphere Single)).2.x.Is 1 := ⟨false, by decide +kernel⟩
  have e1 := ho.1.unique eo
  have e2 := hd.1.unique ed
  have e3 := hmx.1.unique em
  have := hb.1.2
  simp only [along, Vec3.add_x, Vec3.smul_x, e1, e2, e3] at this
  norm_num at this

/-- **C100 is false** (float arithmetic): a sphere is moved by writing to the caller's vector after `commit`.  With every Embree, it is not
found any more where it was; and a careful Embree need not find it where it is now, since the bounds are the old ones.  In a scene built
after the change it has to be found. -/
theorem C100_moved_is_missed (l : Layout) : ∃ m r r', runEmb l (embSphereMemory, EmbRefScene.init)
      [.addSpheres 0 0, .commit, .change embMovedMemory] = .ok (m, r) ∧
    runEmb l (embSphereMemory, EmbRefScene.init) [.change embMovedMemory, .addSpheres 0 0, .commit] = .ok (m, r') ∧
    (∀ rtc rh o, r.Intersect1 l rtc m (embUpRay 0) rh o → o = .ok (false, rh)) ∧
    (∃ rtc : Rtc Single, rtc.Careful ∧ ∀ rh, r.Intersect1 l rtc m (embUpRay 10) rh (.ok (false, rh))) ∧
    ∀ rtc : Rtc Single, rtc.Careful → ∀ rh o, r'.Intersect1 l rtc m (embUpRay 10) rh o →
      ∃ out, o = .ok (true, out) ∧ out.hitDistance = sgl 4 := by
  have h0 : embSphereMemory.vecs.data 0 = .ok (0, [svec 0 0 5]) := rfl
  have h0' : embMovedMemory.vecs.data 0 = .ok (0, [svec 10 0 5]) := rfl
  refine ⟨embMovedMemory, embSphereScene (svec 0 0 5), embSphereScene (svec 10 0 5), ?_, ?_, ?_, ⟨lazyRtc, lazyRtc_careful, ?_⟩, ?_⟩
  · rw [embSphere_run l h0 rfl]; rfl
  · exact embSphere_run l (m := embMovedMemory) h0' rfl []
  · intro rtc rh o ho
    have hn : (EmbSphere.intersect ⟨svec 10 0 5, sgl 1, 0⟩ invalidId (embUpRay 0).toRtc).hit.geomID = invalidId := by decide +kernel
    rcases (embSphere_intersect1 l rtc _ h0' _ rh o).1 ho with rfl | ⟨-, rfl⟩
    · unfold RtcRayHit.copyTo; rw [if_neg (fun h => h hn)]
    · rfl
  · exact fun rh => (embSphere_intersect1 l lazyRtc _ h0' _ rh _).2 (.inr ⟨embMoved_missed, rfl⟩)
  · intro rtc hrtc rh o ho
    have hn : (EmbSphere.intersect ⟨svec 10 0 5, sgl 1, 0⟩ invalidId (embUpRay 10).toRtc).hit.geomID ≠ invalidId := by decide +kernel
    have ht : (EmbSphere.intersect ⟨svec 10 0 5, sgl 1, 0⟩ invalidId (embUpRay 10).toRtc).ray.tfar = sgl 4 := by decide +kernel
    rcases (embSphere_intersect1 l rtc _ h0' _ rh o).1 ho with rfl | ⟨hm, -⟩
    · exact ⟨_, by unfold RtcRayHit.copyTo; rw [if_pos hn], ht⟩
    · have f0 : (embUpRay 10).toRtc.ray.tnear.Is 0 := ⟨false, by decide +kernel⟩
      have f1 : (embUpRay 10).toRtc.ray.tfar.Is 100 := ⟨false, by decide +kernel⟩
      have fo : IsV (embUpRay 10).toRtc.ray.org ⟨10, 0, 0⟩ := ⟨⟨false, by decide +kernel⟩, ⟨false, by decide +kernel⟩, ⟨false, by decide +kernel⟩⟩
      have fd : IsV (embUpRay 10).toRtc.ray.dir ⟨0, 0, 1⟩ := ⟨⟨false, by decide +kernel⟩, ⟨false, by decide +kernel⟩, ⟨false, by decide +kernel⟩⟩
      have b1 : IsV (EmbSphere.bounds (⟨svec 10 0 5, sgl 1, 0⟩ : EmbSphere Single)).1 ⟨9, -1, 4⟩ :=
        ⟨⟨false, by decide +kernel⟩, ⟨true, by decide +kernel⟩, ⟨false, by decide +kernel⟩⟩
      have b2 : IsV (EmbSphere.bounds (⟨svec 10 0 5, sgl 1, 0⟩ : EmbSphere Single)).2 ⟨11, 1, 6⟩ :=
        ⟨⟨false, by decide +kernel⟩, ⟨false, by decide +kernel⟩, ⟨false, by decide +kernel⟩⟩
      exact absurd (by constructor <;> decide +kernel) (hrtc.miss _ _ hm _ _ _ _ _ _ fo fd f0 f1 b1 b2 5 (by norm_num) (by norm_num))

/-! ### Examples of the hypotheses -/

/-- A program that adds a sphere, discards the vector of radii, allocates another vector of points, and commits. -/
def embProgram : List (EmbEvent Single) :=
  [.addSpheres 0 0, .change { embSphereMemory with nums := sampleCells [], vecs := sampleCells [[svec 0 0 5], [svec 7 7 7]] }, .commit]

theorem embProgram_leftAlone : EmbLeftAlone embSphereMemory EmbHeld.nothing embProgram := by
  refine .call _ _ _ _ (fun _ => nofun) (.change _ _ _ _ ⟨?_, nofun, nofun⟩ (.call _ _ _ _ (fun _ => nofun) (.nil _ _)))
  intro x hx
  obtain rfl : x = 0 := by simpa [EmbHeld.next, EmbHeld.nothing] using hx
  refine ⟨rfl, ?_⟩
  intro b hb
  cases hb
  rfl

/-- `C99_as_if_copied` and `C99_copy_is_run` apply to it, both scenes exist -/
example (l : Layout) : (∃ st, runEmb l (embSphereMemory, EmbRefScene.init) embProgram = .ok st) ∧
    ∃ st, runEmbCopies l (embSphereMemory, EmbScene.init) embProgram = .ok st := ⟨⟨_, rfl⟩, ⟨_, rfl⟩⟩

/-- `C100_queries_read_partial` applies: the vector moves to another object, the buffer is kept -/
example : EmbSameForQueries (embSphereScene (svec 0 0 5)) embSphereMemory
    { embSphereMemory with vecs := embSphereMemory.vecs.moveTo 0 3 4, nums := sampleCells [] } := by
  refine ⟨fun q hq => ?_, fun q hq => ?_, fun q hq => ?_, fun v n f k hq => ?_⟩
  · obtain rfl : q = ⟨⟨0, 0⟩, sgl 1, 0⟩ := by simpa [embSphereScene] using hq
    rfl
  · simp [embSphereScene] at hq
  · simp [embSphereScene] at hq
  · simp [embSphereScene] at hq

/-- `C100_written_before_commit_partial` applies to the move of the sphere -/
example : SameShape embSphereMemory.vecs embMovedMemory.vecs ∧ embMovedMemory.nums = embSphereMemory.nums ∧
    ∀ e ∈ ([.addSpheres 0 0] : List (EmbEvent Single)), e.Adds := by
  refine ⟨⟨rfl, fun b => ?_⟩, rfl, fun e he => ?_⟩
  · rcases b with _ | b <;> rfl
  · obtain rfl : e = .addSpheres 0 0 := by simpa using he
    trivial

/-- `C100_freed` applies: after the program the vector is destroyed, or grows -/
example (l : Layout) : ∃ m r, runEmb l (embSphereMemory, EmbRefScene.init) embProgram = .ok (m, r) ∧
    (∀ x ∈ (embHeldBy embProgram).vecs, ∀ b, m.vecs.buffer x = some b → (m.vecs.destroy 0).elems b = none) ∧
    ∀ x ∈ (embHeldBy embProgram).vecs, ∀ b, m.vecs.buffer x = some b → (m.vecs.regrow 0 7 (svec 1 1 1)).elems b = none := by
  refine ⟨_, _, rfl, ?_, ?_⟩
  all_goals
    intro x hx b hb
    obtain rfl : x = 0 := by simpa [embHeldBy, embProgram, EmbHeld.next, EmbHeld.nothing] using hx
    cases hb
    rfl

end Blazert
