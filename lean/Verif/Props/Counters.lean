/- C94: 32-bit counters. -/
import Verif.Proofs.Counters
import Verif.Props.Build

set_option autoImplicit false

namespace Blazert
open Scalar

variable {T P : Type} [Scalar T]

/-- **C94**.  For fewer than `2^32 / 3` primitives and bins (and leaves that may hold a primitive) no counter of the builder wraps
around or overflows: with counters of 32 bits the result is the same as with natural numbers, be it a tree or undefined behaviour. -/
theorem C94_no_wrap_around (part : StdPartition) (p : Collection T P) (o : BuildOptions) (ho : 1 ≤ o.minLeaf) (hd : o.maxDepth < 2 ^ 32)
    (hb : 3 * o.binSize < 2 ^ 32) (hn : 3 * p.size < 2 ^ 32) : build32 part p o [] = build part p o [] := by
  unfold build32 build
  rw [if_neg (by omega)]
  rw [buildRecursive32_eq part p o ho hd hb _ 0 [] (List.range p.size) Statistics.init (by simpa using hn) (by simp; omega)
    (by simp [Statistics.init]; omega) (by simp [Statistics.init]; omega) (by simpa [Statistics.init] using hn)]

/-- In particular for scenes, which are built with the default options. -/
theorem C94_default_options (part : StdPartition) (p : Collection T P) (hn : 3 * p.size < 2 ^ 32) :
    build32 part p BuildOptions.default [] = build part p BuildOptions.default [] :=
  C94_no_wrap_around part p _ (by decide) (by decide) (by decide) hn

/-- What is stored in the tree then fits into 32 bits, and is different from the invalid index. -/
theorem C94_children (part : StdPartition) (p : Collection T P) (o : BuildOptions) (ho : 1 ≤ o.minLeaf) (hd : o.maxDepth < 2 ^ 32)
    (hb : 3 * o.binSize < 2 ^ 32) (hn : 3 * p.size < 2 ^ 32) (nodes : List (Node T P)) (stats : Statistics)
    (h : build32 part p o [] = .ok (nodes, stats)) : nodes.length < invalidId ∧ nodes.length ≤ Nat.max 1 (2 * p.size - 1) := by
  rw [C94_no_wrap_around part p o ho hd hb hn] at h
  obtain ⟨h1, h2⟩ := C18_node_count part p o nodes stats h
  have : nodes.length ≤ Nat.max 1 (2 * p.size - 1) := by
    rcases Nat.eq_zero_or_pos p.size with h0 | h0
    · rw [h2 h0]; exact Nat.le_max_left _ _
    · exact (h1 ho h0).trans (Nat.le_max_right _ _)
  refine ⟨this.trans_lt ?_, this⟩
  unfold invalidId
  rw [Nat.max_lt]
  omega

/-- The bound on the number of bins is sharp.  For `2^32 / 3` bins (rounded up) the computation of the number of bins for the three axes
wraps around, and the bins of the second axis are out of bounds. -/
theorem C94_too_many_bins : ∃ o : BuildOptions, 1 ≤ o.minLeaf ∧ o.maxDepth < 2 ^ 32 ∧ o.binSize < 2 ^ 32 ∧ 3 * o.binSize = 2 ^ 32 + 2 ∧
    ∃ p : Collection Double (Sphere Double), p.size = 2 ∧ build32 stablePartition p o [] = .error .oobBin :=
  ⟨⟨1, 28, 1431655766⟩, by decide, by decide, by decide, by decide,
    SphereColl.toCollection ⟨[dvec 0 0 0, dvec 4 0 0], [dbl 1, dbl 1],
      [(dvec (-1) (-1) (-1), dvec 1 1 1), (dvec 3 (-1) (-1), dvec 5 1 1)]⟩, rfl, by decide +kernel⟩

/-! ### Examples -/

/-- a collection that is built without undefined behaviour, with both kinds of counters -/
example : ∃ out, build32 stablePartition (SphereColl.toCollection (T := Double) ⟨[dvec 0 0 0, dvec 4 0 0], [dbl 1, dbl 1],
    [(dvec (-1) (-1) (-1), dvec 1 1 1), (dvec 3 (-1) (-1), dvec 5 1 1)]⟩) ⟨1, 28, 8⟩ [] = .ok out ∧ out.1.length = 3 ∧
      out.2.branchNodes = 1 :=
  exists_ok_of_eval (by decide +kernel)

end Blazert
