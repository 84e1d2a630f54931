/- Specification vocabulary: programs that leave the containers they passed to an Embree scene alone. -/
import Verif.Model.EmbreeMemory
import Verif.Spec.Memory

set_option autoImplicit false

namespace Blazert
variable {T : Type}

/-- The containers that an Embree scene may refer to: the vectors of centers and vertices, rotations, and faces passed so far.  Vectors
of numbers are not among them. -/
structure EmbHeld where
  vecs : List Nat
  mats : List Nat
  faces : List Nat

/-- nothing was passed yet -/
def EmbHeld.nothing : EmbHeld := ⟨[], [], []⟩

/-- what may be referred to after an event -/
def EmbHeld.next (h : EmbHeld) : EmbEvent T → EmbHeld
  | .change _ => h
  | .addMesh v f => { h with vecs := v :: h.vecs, faces := f :: h.faces }
  | .addSpheres c _ => { h with vecs := c :: h.vecs }
  | .addPlanes c _ _ r => { h with vecs := c :: h.vecs, mats := r :: h.mats }
  | .addCylinders c _ _ _ r => { h with vecs := c :: h.vecs, mats := r :: h.mats }
  | .commit => h

/-- a change of memory that leaves these containers as they were -/
structure EmbHeld.Kept (h : EmbHeld) (m m' : Memory T) : Prop where
  vecs : ∀ x ∈ h.vecs, Same m.vecs m'.vecs x
  mats : ∀ x ∈ h.mats, Same m.mats m'.mats x
  faces : ∀ x ∈ h.faces, Same m.faces m'.faces x

/-- The program, started with memory `m` and a scene that refers to `h`, changes none of the containers that the scene refers to at the
time. -/
inductive EmbLeftAlone : Memory T → EmbHeld → List (EmbEvent T) → Prop
  | nil (m : Memory T) (h : EmbHeld) : EmbLeftAlone m h []
  | change (m m' : Memory T) (h : EmbHeld) (es : List (EmbEvent T)) (hk : h.Kept m m') (ht : EmbLeftAlone m' h es) :
      EmbLeftAlone m h (.change m' :: es)
  | call (m : Memory T) (h : EmbHeld) (e : EmbEvent T) (es : List (EmbEvent T)) (he : ∀ m', e ≠ .change m')
      (ht : EmbLeftAlone m (h.next e) es) : EmbLeftAlone m h (e :: es)

/-- the containers that a new scene may refer to after the program `es` -/
def embHeldBy (es : List (EmbEvent T)) : EmbHeld := es.foldl EmbHeld.next EmbHeld.nothing

/-- the same containers with the same numbers of elements, in the same places -/
def SameShape {α : Type} (s s' : Store α) : Prop :=
  s'.buffer = s.buffer ∧ ∀ b, (s'.elems b).map List.length = (s.elems b).map List.length

/-- calls that add something -/
def EmbEvent.Adds : EmbEvent T → Prop
  | .change _ => False
  | .commit => False
  | _ => True

section
variable [Scalar T]

/-- execution of an event by a scene that copies what it is passed -/
def EmbEvent.execCopy (l : Layout) : Memory T × EmbScene T → EmbEvent T → Run (Memory T × EmbScene T)
  | (_, s), .change mem => .ok (mem, s)
  | (m, s), .addMesh v f => do
    let vs ← m.vecs.read v
    let fs ← m.faces.read f
    let r ← s.addMesh l vs fs
    return (m, r.1)
  | (m, s), .addSpheres c r => do
    let cs ← m.vecs.read c
    let rs ← m.nums.read r
    let r ← s.addSpheres cs rs
    return (m, r.1)
  | (m, s), .addPlanes c x y r => do
    let cs ← m.vecs.read c
    let xs ← m.nums.read x
    let ys ← m.nums.read y
    let rs ← m.mats.read r
    let r ← s.addPlanes cs xs ys rs
    return (m, r.1)
  | (m, s), .addCylinders c a b k r => do
    let cs ← m.vecs.read c
    let va ← m.nums.read a
    let vb ← m.nums.read b
    let ks ← m.nums.read k
    let rs ← m.mats.read r
    let r ← s.addCylinders cs va vb ks rs
    return (m, r.1)
  | (m, s), .commit => do
    let s ← s.commit
    return (m, s)

/-- execution of a program with a scene that copies what it is passed -/
def runEmbCopies (l : Layout) (st : Memory T × EmbScene T) (es : List (EmbEvent T)) : Run (Memory T × EmbScene T) :=
  es.foldlM (EmbEvent.execCopy l) st

/-- Everything that a query of the scene reads is the same in both memories: the elements that objects refer to, and the buffers of
meshes. -/
structure EmbSameForQueries (s : EmbRefScene T) (m m' : Memory T) : Prop where
  sphere : ∀ q, some (.sphere q) ∈ s.heap → m'.vecs.deref q.center = m.vecs.deref q.center
  plane : ∀ q, some (.plane q) ∈ s.heap → m'.vecs.deref q.center = m.vecs.deref q.center ∧ m'.mats.deref q.rot = m.mats.deref q.rot
  cylinder : ∀ q, some (.cylinder q) ∈ s.heap → m'.vecs.deref q.center = m.vecs.deref q.center ∧
    m'.mats.deref q.rot = m.mats.deref q.rot
  mesh : ∀ v n f k, .mesh v n f k ∈ s.attached → m'.vecs.elems v = m.vecs.elems v ∧ m'.faces.elems f = m.faces.elems f

end
end Blazert
