# Formal model of blazert: design and trusted base

## What is proved about what

The Lean project in `lean/` contains a hand-written model of blazert, function by function, and theorems about that model.
Every model definition cites the file and lines of `/repo` it mirrors.
Nothing is extracted from the C++ automatically: the correspondence between the C++ text and the model is by reading, and
it is part of the trusted base.

### Files

| where | what |
|-------|------|
| `Verif/Scalar.lean`, `XF.lean`, `Format.lean`, `Vec.lean` | numbers, formats, vectors, undefined behaviour |
| `Verif/Model/*` | the model: `Bits` and `Datatypes` (`datatypes.h`, `ray.h`), `Builder` (`bvh/builder.h`, `binbuffer.h`, `bbox.h`, ...), `Traverse` (`bvh/accel.h`, `intersect.h`), `Sphere`, `Plane`, `TriMesh`, `Cylinder` (`primitives/*.h`), `Scene` (`scene.h`), `Memory` (the same code with references to the caller's containers), `Embree` (`embree/*`), `Print` (`operator<<` of all classes), `Counters` (the builder with 32-bit counters) |
| `Verif/Spec/*` | what the theorems speak about: geometry, distances, trees, boxes, histories of calls; independent of how the code computes |
| `Verif/Proofs/*` | helper lemmas |
| `Verif/Props/*` | the property theorems `Cnn_...`, each with a concrete example for its hypotheses |
| `Verif/Sample*.lean` | concrete inputs and their evaluation, used by the examples and the counterexamples |
| `properties.jsonl`, `MANIFEST.json` | the properties in words; which theorems establish (or refute) them |
| `AXIOMS.md` | the axioms of each theorem of the manifest, as printed by `#print axioms` |
| `seeded/LOG.jsonl` | wrong programs on which the theorems were tried |

### Numbers

The C++ code is a template over the floating point type `T`.  The model is likewise polymorphic over a class `Scalar T`
(arithmetic, Bool-valued comparisons, `sqrt`, `abs`, sign bit, literals, `numeric_limits`, and the partial conversion
`unsigned(std::round(x))`, whose undefined cases are `none`).

* Structural results (building, indexing, traversal order, stack, ids, statistics, schedules, API histories) are proved for
  *every* `Scalar T`, hence for any arithmetic whatsoever, including one with NaN, infinities and any rounding.
* Geometric results are proved for `XF F`: numbers with `+-0`, `+-inf`, `nan` and the IEEE-754 special-value rules over an
  ordered field `K`, where the format `F : Fmt K` supplies rounding/overflow (`post`), `sqrt`, `max`, `epsilon`, `min`.
  `F.Exact` means no rounding error and no overflow (special values are still there), with `K` the reals.
* Rounding theorems (C19, C21, C67-C69, C72-C75) assume the standard model `|fl(x) - x| <= u|x|` (`Fmt.Relative`), or gradual underflow
  (`Fmt.Gradual`), or this together with a law for square roots (`Fmt.Rounds`); binary32 and binary64 are proved to satisfy
  all of them, as well as `Fmt.Saturates` (results above the range are not rounded into it) and `Fmt.Odd` (rounding
  commutes with negation).  `Scale`, `Scale3` and `Scale4` state the range of sizes in which nothing overflows and underflow is negligible.
* Counterexamples are evaluated by the kernel over the rationals in a bit-accurate round-to-nearest-even binary64 (or
  binary32) format, so that they are statements about `double` (`float`) arithmetic and not artefacts of idealisation.
  Where a square root of a rational is needed, the format rounds it correctly too.

### Undefined behaviour

`Run a = Except UB a`.  Out-of-range node index, stack slot, bin, primitive, vertex, axis, undefined
float-to-unsigned conversion, null pointers, use of deleted objects and queries of an uncommitted Embree scene are distinct
outcomes.  The traversal loop carries fuel; running out of it is an outcome `outOfFuel` of its own, and it is proved never
to occur.

### Collections and `std::partition`

The C++ concepts `Collection`, `intersector` are modelled by records of functions
(`Collection`, `Intersector`), instantiated for spheres, planes, triangle meshes and cylinders.
`std::partition` is an arbitrary function satisfying the standard's specification (a permutation, true-elements
first); all theorems hold for every such function.

### Concurrency

`traverse` takes the BVH as `const`, and its stack and intersector are locals.  The concurrency theorem (C13) runs any
number of queries as small-step machines under any schedule; one step is one iteration of the loop, and the shared node
list is an in/out argument of every step.

### Memory of the caller

Collections refer to the vectors passed to `add_*`, and primitives in the leaves to elements of these vectors.  Most theorems
are about `Model/Scene.lean`, where everything is copied.  `Model/Memory.lean` models the references: the caller's memory
consists of vector objects, which own buffers, which contain elements; reading through a dead vector object or a freed buffer
is `UB.dangling`.  C64 proves that both models agree as long as the caller leaves the containers alone; C65 is about what
happens otherwise.

`Model/EmbreeMemory.lean` does the same for the Embree back-end, whose objects refer to one center and one rotation each, and whose meshes
are buffers shared with Embree (C99, C100).  Embree is taken to read the shared buffers in the commit and in every query that processes the
mesh.

### Embree back-end

`Model/Embree.lean` covers the code of blazert that is compiled with Embree, for `T = float`: the callbacks for bounds,
intersection and occlusion of `EmbreeSphere`, `EmbreePlane`, `EmbreeCylinder`, and `EmbreeScene` with `intersect1`.
For `double`, `EmbreeScene` delegates everything to `BlazertScene`.
Embree itself is a library outside `/repo`.  What the theorems assume about it:

* `rtcAttachGeometry` numbers the geometries consecutively; `rtcCommitScene` calls every bounds callback.
* `rtcIntersect1` (after a commit, and nothing attached since) processes each attached geometry at most once, one after the
  other, in an *arbitrary* order.  It may leave out a user geometry if `miss` holds for its bounds and the ray in its current
  state; `miss` is an arbitrary predicate, and theorems about hits assume it to be sound (`miss` only if no point of the ray
  with parameter in `[tnear, tfar]` is in the bounds).
* Triangle meshes are intersected by Embree's own function `tri`, of which theorems about hits assume a contract
  (closest hit with the triangles of the mesh Embree was given).  Which mesh that is, is modelled: the shared buffers are
  read with the byte strides computed in `add_mesh`.

The objects live in a small heap: replacing a `unique_ptr` frees the old object, and a callback on it is `UB.dangling`.

## Properties

| id | how |
|----|-----|
| C01, C02 | scene model, C03 and the theorems on primitives; C02 also in any arithmetic (provenance of the record) |
| C03 | node array refines a tree; traversal invariant on the stack; culling lemma C20 |
| C04 | any-hit version of the C03 invariant |
| C05 | direct on `traverse`, `intersect1`, any `Scalar` |
| C06 | false: witness; `_partial` for what does hold |
| C07, C08 | induction over call histories |
| C09 | second build only appends nodes; traversal reads nodes reachable from 0 |
| C10, C12 | traversal invariant on represented trees, any `Scalar` |
| C11 | false for default options (kernel-evaluated scene that overflows the stack); `_partial`: depth <= 26, or few primitives |
| C13 | small-step machine per query, interleaving induction |
| C14, C16-C18 | induction on the build recursion, any `Scalar`, any lawful partition |
| C15 | induction; union of boxes in `XF` |
| C19 | range analysis of binning with gradual underflow; false for ill-formed or extreme input (witnesses) |
| C20, C21 | slab analysis, exact and with relative rounding errors |
| C22-C24 | false: witnesses; partial positive statements |
| C25-C27 | quadratic analysis over the reals |
| C28-C32 | linear algebra over the reals |
| C33-C35 | linear algebra over the reals |
| C36-C39 | cylinders: case analysis of the test over the reals; what fails is proved or witnessed; whole scenes with cylinders |
| C40-C44 | metric arguments over the reals; C41, C43, C44 are false in general (witnesses) |
| C45 | case analysis on bit patterns |
| C46 | refinement of the array stack to a list |
| C47-C49 | corollaries of C03/C01; false with cylinders (witnesses) |
| C50 | induction over the schedule of callbacks; false with cylinders |
| C51-C54 | direct on the scene model, induction over call histories; C52 and C54 false, C53 partly |
| C55, C56 | callback against callback, callback against native test |
| C57 | arithmetic of byte strides: false for every layout |
| C58-C60 | as for the native primitives |
| C55, C56, C58, C59 in `float` | the same with all roundings, for spheres and planes (`Props/EmbreeAgree.lean`) |
| C61, C62 | derivatives over the reals (`HasDerivAt`); C61 false for two of the four instances |
| C63 | the error of the Newton iteration on a circle contracts by the square of the position; metric argument for the solid |
| C64, C65 | simulation between the model with references and the model that copies |
| C66, C67 | induction on the visit of the tree, any `Scalar`; C15 and C21 for the rounding |
| C68, C69 | forward and backward error analysis of the sphere test, carried through the tests of a traversal by C66/C67 |
| C70 | invariant of the two sweeps: running counts and hulls; order of the format for the comparison |
| C71 | false (witness); arithmetic of the two roundings in exact arithmetic |
| C72 | false (witness); for fans, the edge functions of a shared edge are computed from the same numbers with opposite signs |
| C73, C74 | error analysis of the triangle test, carried through the tests of a traversal by C66/C67 |
| C75 | false (witnesses); error analysis of the quotient |
| C76, C77 | false; a scanner for texts, induction over the grammar of JSON (which tokens may be adjacent) |
| C78 | invariant of the four steps of `intersect1`: the record so far is the closest answer so far |
| C79 | provenance of the record (C02), sign of every operation in the tests |
| C80 | C69, C74, C82 and C106, C09 for repeated commits, C78 and C79 |
| C81, C82 | error analysis of the plane test (flat rays: the quotient is inaccurate, but bounded by the side test) and of the box of a rectangle, carried through the tests of a traversal by C66/C67 |
| C83 | C68, C73, C81 and C89 for the geometry that C78 names |
| C84 | the visit of the tree with `any_hit`: nothing changes before the first success, after which the loop ends |
| C85 | C84, the bounds on recorded distances from the error analysis of C68, C73, C81 and C89, and C78; dust triangles (C75) as witness that the bound on determinants is needed |
| C86 | C68, error analysis of the recomputed point and of `normalize` |
| C87 | C81 with the branch taken made explicit (away from the sides the first one is taken), error analysis of sign, matrix column and `normalize`; on the sides false (C34) |
| C88 | error analysis of difference, length and subtraction; the exact distance (C40) is taken over the reals, for the rational numbers that the formats represent |
| C89 | error analysis of the quadratic of the tube (the discriminant's relative error is bounded by the larger of its terms; near tangency the root is inaccurate, but the residual of the equation is not), of the cap distances and of the inside tests; ordered rounding shows that a cap is entered from outside |
| C90 | the error bounds of C73 for the signed areas, those of the two quotients, and Cramer's rule |
| C91 | error analysis of the interpolation and of `normalize`; the vertex normals of an isolated face are a third of its own, up to rounding, and C90 bounds the weights |
| C92 | which normal goes with which parameter (by cases on the branches of the test); error analysis of the gradient, of the product with the matrix and of both normalisations; near the tube the gradient is at least 0.72 / L |
| C93 | the answer of a scene is that of one of its parts (C78), whose tree is the one built by the first `commit`; then C86, C87, C90, C91, C92 |
| C94 | `build32` (32-bit counters) equals `build` (natural numbers), by induction on the recursion, with the bounds on nodes, leaves, branches and bad splits; witness by kernel evaluation for the bound on the bins |
| C95 | a query that returns true goes back to a callback that changed the record (`intersect1_source`); the error analysis of C68/C90 for the roots and normals of the callbacks' own formulas |
| C96 | numbers of moderate magnitude are multiples of a grid constant, so rounded box coordinates are equal or well apart (`NiceBox`); the smallest number in the boxes of rectangles is handled apart; rounded centers of triangles are within `3 u L` of their boxes (`bin_coord_slack`); false for nearly flat meshes (witness) |
| C97 | a hit is near the surface (C83), so the second ray starts near it; a later hit would be near it too, although the ray has left by `κ m` (`sphere_leaves`, `plane_leaves`, `tri_leaves`); geometry ids of the kinds differ (`History.ids`); false with lower limit zero and for cylinders (witnesses) |
| C98 | each callback raises the upper limit by at most `220 (u+ε) L` (`EmbSphere.limit`, `EmbPlane.limit`); the one of the geometry met leaves at most `τ + M + 220 (u+ε) L`, and is left out only if the limit is lower anyway, since the stored bounds contain a point of the ray near `τ` (`EmbSphere.bounds_met`, `EmbPlane.bounds_met`); induction over the trace (`RtcTrace.limit_found`, `RtcTrace.recorded`) |
| C99, C100 | simulation between the Embree model with references (`Model/EmbreeMemory.lean`) and the one that copies (`EmbSim.run`); C100: congruence of what is read (`process_congr`), freed buffers (`EmbSim.process_freed`), adding depends on shapes only (`run_shape`) |
| C101, C102 | closure of "not a number" and of "zero or NaN" under the operations; in each primitive test the parameter or the distance is not a number, so no comparison holds (`Proofs/Degenerate.lean`, `Proofs/EmbreeDegenerate.lean`) |
| C103, C104 | monotone and odd rounding keeps the two computed roots in order, so the branches with the slips are dead; what is recorded otherwise passed the tests of the native code, whose error analysis applies (`Proofs/Monotone.lean`, `Proofs/EmbreeCylRound.lean`) |
| C105 | the margins outlast the error of the computed coordinates, so the computed roots and cap parameters lie between the two given ones and pass the tests; the distance is then that of the first (`Proofs/CylSeen.lean`, `Proofs/CylFound.lean`, `Proofs/CylEnter.lean`) |
| C106 | C67 with C105: a cylinder that was not tested was skipped for a smaller distance, and no test leaves a distance that is not finite |
| C107 | a reported hit is near a surface (C83; for Embree the lemmas behind C95 and C103), which a ray that is clear until `T` is only beyond `T`; the conditions are in `Spec/Free.lean` |
| C108 | lower bounds from C107, upper bounds from C80 and C98 |
| C109 | per region: quotients of a number and a greater one are at most `1 + 2u`, `NearBary`; the inverse determinant from its lower bound; clamping to the triangle |
| C110 | conditions of Karush, Kuhn and Tucker up to an error (`KKT`), per region, from inexact choices of the region (`Quad`); then convexity |
| C111 | coordinates in the system of the rectangle as computed (`plane_coords`), edges as computed |
| C112 | the same coordinates; the equation of the ellipse is computed negative (`ell_neg`), then the cap on the same side or the nearer one |
| C113 | the equation of the ellipse is not NaN (`ell_not_nan`), all other results are roots, absolute values or half axes |
| C114 | a finite result comes from finite coordinates; those satisfy the equation of the ellipse up to rounding, whatever the search found (`ell_point`); the distances from the caps are taken only inside (`ell_value`) |
| C115 | the branches one by one (`cylDistance_branches`); heights off by rounding are moved between the caps (`clamp_height`), beyond the rim the squares are added (`reach_rim`) |
| C116 | the point of C115 is pulled to the surface along the ray from the axis (`ellipse_pull`), then the triangle inequality |
| C117 | C116; a nearly orthonormal matrix hardly lengthens (`space_dist`) |
| C118 | C109 and C110; at the closest point the angle is not acute (`ClosestIn.apart`), so points that are nearly as close are near it |
| C119 | coordinates and sign of the ellipse equation as for C112; the minimum of anything and the distances from the caps, if a number, is at most these (`minOf_caps`) |
| C120 | C42 and `ClosestIn.apart`; permutations of barycentric coordinates |
| C121 | the angles at both closest points are not acute (`ClosestIn.two`), Cauchy-Schwarz |
| C122 | C109 and C110 for both orders; the point in the middle is not much closer either (`both_near`) |

A theorem whose name ends in `_partial` proves a weaker statement than the property; its docstring and the note in the
manifest say what is missing.  Where the property is false of the code, a theorem with a concrete witness proves that.

## Not modelled

* Formatting of numbers and addresses by streams (a parameter of the model of `operator<<`), time measurement in the statistics, the conversion operators of `BVH`, benchmarks, examples.
* The Embree library, beyond the assumptions listed above.  The occlusion callbacks are registered but never called by
  blazert; they are modelled as functions.
* Blaze: vectors and matrices are records; sums of products are evaluated left to right (no SIMD reordering, no FMA
  contraction).  In exact arithmetic this is immaterial.
* `abs` without `std::` in `EmbreePlane.h` is taken to be the floating-point function.
* Wrap-around of counters: they are natural numbers, except in `Model/Counters.lean`, where those of the builder have 32 bits; C94 says
  when this makes no difference.  Counters of 64 bits do not wrap around.

## Trusted base

The Lean 4 kernel; the axioms `propext`, `Classical.choice`, `Quot.sound`, and no others (`AXIOMS.md` lists them for each
theorem); the hand translation of the C++ text into the model; the specifications (in `Verif/Spec` and in the theorem
statements); for C50-C60 the assumptions about Embree above.
No `sorry`, no added axioms, no `native_decide`, no `bv_decide`.
