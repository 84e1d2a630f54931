/- Specification vocabulary: programs that leave the containers they passed to a scene alone. -/
import Verif.Model.Memory

set_option autoImplicit false

namespace Blazert
variable {T : Type}

/-- The containers that a scene refers to: those passed in accepted `add_*` calls (the first one of each kind, before the
first commit). -/
structure Held where
  mesh : Option (Nat × Nat)
  spheres : Option (Nat × Nat)
  planes : Option (Nat × Nat × Nat × Nat)
  cylinders : Option (Nat × Nat × Nat × Nat × Nat)
  closed : Bool

/-- nothing was passed yet -/
def Held.nothing : Held := ⟨none, none, none, none, false⟩

/-- the first accepted argument stays -/
def hold {α : Type} (closed : Bool) (old : Option α) (new : α) : Option α :=
  match old with
  | some x => some x
  | none => if closed then none else some new

/-- what is referred to after an event -/
def Held.next (h : Held) : Event T → Held
  | .change _ => h
  | .addMesh v f => { h with mesh := hold h.closed h.mesh (v, f) }
  | .addSpheres c r => { h with spheres := hold h.closed h.spheres (c, r) }
  | .addPlanes c x y r => { h with planes := hold h.closed h.planes (c, x, y, r) }
  | .addCylinders c a b k r => { h with cylinders := hold h.closed h.cylinders (c, a, b, k, r) }
  | .commit _ => { h with closed := true }

/-- the containers that a new scene refers to after the program `es` -/
def heldBy (es : List (Event T)) : Held := es.foldl Held.next Held.nothing

/-- `c` is one of the vectors of points that are referred to -/
def Held.points (h : Held) (c : Nat) : Prop :=
  (∃ f, h.mesh = some (c, f)) ∨ (∃ r, h.spheres = some (c, r)) ∨ (∃ x y r, h.planes = some (c, x, y, r)) ∨
    ∃ a b k r, h.cylinders = some (c, a, b, k, r)

/-- the vector `x` and its elements are the same in both stores -/
def Same {α : Type} (s s' : Store α) (x : Nat) : Prop :=
  s'.buffer x = s.buffer x ∧ ∀ b, s.buffer x = some b → s'.elems b = s.elems b

/-- a change of memory that leaves all containers that the scene refers to as they were -/
structure Held.Kept (h : Held) (m m' : Memory T) : Prop where
  mesh : ∀ v f, h.mesh = some (v, f) → Same m.vecs m'.vecs v ∧ Same m.faces m'.faces f
  spheres : ∀ c r, h.spheres = some (c, r) → Same m.vecs m'.vecs c ∧ Same m.nums m'.nums r
  planes : ∀ c x y r, h.planes = some (c, x, y, r) →
    Same m.vecs m'.vecs c ∧ Same m.nums m'.nums x ∧ Same m.nums m'.nums y ∧ Same m.mats m'.mats r
  cylinders : ∀ c a b k r, h.cylinders = some (c, a, b, k, r) →
    Same m.vecs m'.vecs c ∧ Same m.nums m'.nums a ∧ Same m.nums m'.nums b ∧ Same m.nums m'.nums k ∧ Same m.mats m'.mats r

/-- The program `es`, started with memory `m` and a scene that refers to `h`, changes none of the containers that the scene
refers to at the time. -/
inductive LeftAlone : Memory T → Held → List (Event T) → Prop
  | nil (m : Memory T) (h : Held) : LeftAlone m h []
  | change (m m' : Memory T) (h : Held) (es : List (Event T)) (hk : h.Kept m m') (ht : LeftAlone m' h es) :
      LeftAlone m h (.change m' :: es)
  | call (m : Memory T) (h : Held) (e : Event T) (es : List (Event T)) (he : ∀ m', e ≠ .change m')
      (ht : LeftAlone m (h.next e) es) : LeftAlone m h (e :: es)

/-- Everything that a query of the scene `r` reads is the same in both memories: the elements that the primitives in the
leaves refer to, the faces of the mesh and the centers of the spheres. -/
structure SameForQueries (r : RefScene T) (m m' : Memory T) : Prop where
  mesh : ∀ p, r.mesh = some p → m'.faces.read p.coll.faces = m.faces.read p.coll.faces ∧
    ∀ n ∈ p.nodes, ∀ t ∈ n.prims, m'.vecs.deref t.a = m.vecs.deref t.a
  spheres : ∀ p, r.spheres = some p → m'.vecs.read p.coll.centers = m.vecs.read p.coll.centers ∧
    ∀ n ∈ p.nodes, ∀ t ∈ n.prims, m'.vecs.deref t.center = m.vecs.deref t.center
  planes : ∀ p, r.planes = some p → ∀ n ∈ p.nodes, ∀ t ∈ n.prims,
    m'.vecs.deref t.center = m.vecs.deref t.center ∧ m'.mats.deref t.rotation = m.mats.deref t.rotation
  cylinders : ∀ p, r.cylinders = some p → ∀ n ∈ p.nodes, ∀ t ∈ n.prims,
    m'.vecs.deref t.center = m.vecs.deref t.center ∧ m'.nums.deref t.a = m.nums.deref t.a ∧
    m'.nums.deref t.b = m.nums.deref t.b ∧ m'.nums.deref t.height = m.nums.deref t.height ∧
    m'.mats.deref t.rotation = m.mats.deref t.rotation

section
variable [Scalar T]

/-- execution of an event by a scene that copies what it is passed -/
def Event.execCopy : Memory T × Scene T → Event T → Run (Memory T × Scene T)
  | (_, s), .change mem => .ok (mem, s)
  | (m, s), .addMesh v f => do
    let vs ← m.vecs.read v
    let fs ← m.faces.read f
    let (s, _) ← s.addMesh vs fs
    return (m, s)
  | (m, s), .addSpheres c r => do
    let cs ← m.vecs.read c
    let rs ← m.nums.read r
    let (s, _) ← s.addSpheres cs rs
    return (m, s)
  | (m, s), .addPlanes c x y r => do
    let cs ← m.vecs.read c
    let xs ← m.nums.read x
    let ys ← m.nums.read y
    let rs ← m.mats.read r
    let (s, _) ← s.addPlanes cs xs ys rs
    return (m, s)
  | (m, s), .addCylinders c a b k r => do
    let cs ← m.vecs.read c
    let va ← m.nums.read a
    let vb ← m.nums.read b
    let ks ← m.nums.read k
    let rs ← m.mats.read r
    let (s, _) ← s.addCylinders cs va vb ks rs
    return (m, s)
  | (m, s), .commit part => do
    let (s, _) ← s.commit part
    return (m, s)

/-- execution of a program with a scene that copies what it is passed -/
def runCopies (st : Memory T × Scene T) (es : List (Event T)) : Run (Memory T × Scene T) := es.foldlM Event.execCopy st

end
end Blazert
