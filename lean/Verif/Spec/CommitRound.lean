/- Specification vocabulary for building with rounding. -/
import Verif.Spec.Hits
import Verif.Spec.CylRound

set_option autoImplicit false

namespace Blazert

section
variable {K : Type} [Field K] [LinearOrder K] [FloorRing K] {F : Fmt K}

/-- a number of the format, zero or of magnitude between `lo` and `M` -/
def XF.Moderate (lo M : K) (x : XF F) : Prop := ∃ v, x.Is v ∧ (∃ r, F.post r = some v) ∧ Between lo M v

/-- all entries are moderate, and the rows have lengths of about one -/
structure Mat3.Moderate (lo : K) (m : Mat3 (XF F)) : Prop where
  entries : ∀ k, (m.r0.get k).Moderate lo 2 ∧ (m.r1.get k).Moderate lo 2 ∧ (m.r2.get k).Moderate lo 2
  rows : ∀ R, IsM m R → 99 / 100 ≤ Vec3.dot R.r0 R.r0 ∧ 99 / 100 ≤ Vec3.dot R.r1 R.r1 ∧ 99 / 100 ≤ Vec3.dot R.r2 R.r2

/-- What the user passed is of moderate size: numbers are zero or of magnitude between `lo` and `M`; and two vertices of the mesh have
equal coordinates along an axis, or coordinates that differ by at least `512 u L` if all coordinates are at most `L`. -/
structure Scene.Moderate (u lo M : K) (s : Scene (XF F)) : Prop where
  vertices : ∀ p, s.mesh = some p → ∃ L, lo ≤ L ∧ L ≤ M ∧ ∀ v ∈ p.coll.vertices, ∃ A, IsV v A ∧ (∀ k, |A.get k| ≤ L) ∧
    ∀ w ∈ p.coll.vertices, ∀ B, IsV w B → ∀ k, A.get k = B.get k ∨ 512 * u * L ≤ |A.get k - B.get k|
  spheres : ∀ p, s.spheres = some p → ∀ (i : Nat) x y, p.coll.centers[i]? = some x → p.coll.radii[i]? = some y →
    (∀ k, (x.get k).Moderate lo M) ∧ y.Moderate lo M ∧ ∀ r, y.Is r → 0 ≤ r
  planes : ∀ p, s.planes = some p → ∀ (i : Nat) x y z m, p.coll.centers[i]? = some x → p.coll.dxs[i]? = some y →
    p.coll.dys[i]? = some z → p.coll.rotations[i]? = some m →
    (∀ k, (x.get k).Moderate lo M) ∧ y.Moderate lo M ∧ z.Moderate lo M ∧ m.Moderate lo ∧ ∀ a b, y.Is a → z.Is b → 0 < a ∧ 0 < b
  cylinders : ∀ p, s.cylinders = some p → ∀ (i : Nat) x y z w m, p.coll.centers[i]? = some x → p.coll.as[i]? = some y →
    p.coll.bs[i]? = some z → p.coll.heights[i]? = some w → p.coll.rotations[i]? = some m →
    (∀ k, (x.get k).Moderate lo M) ∧ y.Moderate lo M ∧ z.Moderate lo M ∧ w.Moderate lo M ∧ m.Moderate lo

end
end Blazert
