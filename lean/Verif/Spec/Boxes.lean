/- Specification vocabulary: unions of boxes. -/
import Verif.XF
import Verif.Vec

set_option autoImplicit false

namespace Blazert

variable {K : Type} [Field K] [LinearOrder K] [FloorRing K] {F : Fmt K}

/-- a finite number of the format -/
def XF.InRange (x : XF F) : Prop := ∃ v s, x = .fin v s ∧ -F.maxVal ≤ v ∧ v ≤ F.maxVal

/-- all six coordinates of the box are finite numbers of the format -/
def BoxInRange (b : Vec3 (XF F) × Vec3 (XF F)) : Prop := ∀ k, (b.1.get k).InRange ∧ (b.2.get k).InRange

/-- the box `a` contains the box `b` -/
def BoxContains {T : Type} [Scalar T] (a b : Vec3 T × Vec3 T) : Prop :=
  ∀ k, Scalar.le (a.1.get k) (b.1.get k) = true ∧ Scalar.le (b.2.get k) (a.2.get k) = true

/-- every face of the box `a` is touched by one of the boxes `bs` -/
def BoxTight {T : Type} (a : Vec3 T × Vec3 T) (bs : List (Vec3 T × Vec3 T)) : Prop :=
  ∀ k, (∃ b ∈ bs, b.1.get k = a.1.get k) ∧ (∃ b ∈ bs, b.2.get k = a.2.get k)

end Blazert
