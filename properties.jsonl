{"id": "C01", "title": "Closest hit over a committed scene", "statement": "After adding triangle meshes, spheres and planes and committing, intersect1(scene, ray, rayhit) with a fresh RayHit returns true exactly when some primitive of the scene is hit by the ray strictly between the ray's min and max hit distance, and then rayhit.hit_distance is the smallest such distance over all primitives of all geometry kinds.", "quantifier": "every scene content, every ray with unit direction, every build of the BVHs", "why_tests_cant": "The inputs form a continuum (scenes, rays, options); a test fixes finitely many of them. The claim compares the answer with all primitives at once, including those the acceleration structure never looked at.", "anchors": ["blazert/scene.h:intersect1", "blazert/scene.h:BlazertScene::commit", "blazert/bvh/accel.h:traverse", "blazert/bvh/builder.h:SAHBinnedBuilder::build"]}
{"id": "C02", "title": "No phantom hits", "statement": "Whenever intersect1 reports a hit, rayhit.hit_distance lies strictly below the ray's max hit distance, and the primitive named by (rayhit.geom_id, rayhit.prim_id) really meets the ray at that distance.", "quantifier": "every scene, every ray, every reported hit", "why_tests_cant": "The inputs form a continuum (scenes, rays, options); a test fixes finitely many of them.", "anchors": ["blazert/scene.h:intersect1", "blazert/bvh/accel.h:traverse", "blazert/primitives/sphere.h:post_traversal", "blazert/primitives/trimesh.h:post_traversal", "blazert/primitives/plane.h:post_traversal"]}
{"id": "C03", "title": "The acceleration structure is transparent", "statement": "traverse(bvh, ray, rayhit) reports the same hit/miss answer and the same hit distance as testing the ray against every primitive of the collection, whatever build options and whatever partition order the standard library picks.", "quantifier": "every collection, every build option, every std::partition implementation, every ray", "why_tests_cant": "The culling decisions depend on the tree shape; the number of shapes is unbounded and tests only see the shape produced by one standard library.", "anchors": ["blazert/bvh/accel.h:traverse", "blazert/bvh/intersect.h:intersect_node", "blazert/bvh/intersect.h:intersect_leaf", "blazert/bvh/builder.h:build_recursive"]}
{"id": "C04", "title": "any_hit answers the occlusion question", "statement": "With any_hit requested, intersect1/traverse returns true exactly when a closest-hit query with the same ray returns true, and the reported distance is the distance of some genuine hit.", "quantifier": "every BVH and ray, both values of the any_hit switch", "why_tests_cant": "The early exit happens at a data-dependent point of the traversal order; every order must give the same yes/no answer.", "anchors": ["blazert/bvh/accel.h:traverse", "blazert/bvh/intersect.h:intersect_leaf", "blazert/ray.h:Ray"]}
{"id": "C05", "title": "A miss leaves the caller's RayHit untouched", "statement": "If traverse or intersect1 reports no hit then every field of the RayHit passed in is unchanged.", "quantifier": "every BVH/scene, every ray, every prior content of the RayHit", "why_tests_cant": "Must hold for all prior contents and all misses.", "anchors": ["blazert/bvh/accel.h:traverse", "blazert/scene.h:intersect1"]}
{"id": "C06", "title": "Result is independent of the RayHit content passed in", "statement": "The answer of intersect1 (boolean and, on a hit, the reported fields) does not depend on what the caller's RayHit contained before the call.", "quantifier": "every scene, every ray, every pair of prior RayHit values", "why_tests_cant": "Tests always pass a fresh RayHit; a relational (two-run) property over all prior contents.", "anchors": ["blazert/scene.h:intersect1"]}
{"id": "C07", "title": "Geometry ids are sequential and never reused", "statement": "The successful add_* calls on a scene return 0, 1, 2, ... in call order; two successful calls never return the same id.", "quantifier": "every sequence of add_*/commit calls", "why_tests_cant": "Ranges over all call histories.", "anchors": ["blazert/scene.h:add_mesh", "blazert/scene.h:add_spheres", "blazert/scene.h:add_planes", "blazert/scene.h:add_cylinders"]}
{"id": "C08", "title": "Rejected additions have no effect", "statement": "An add_* call that returns -1 (second collection of the same kind, or any addition after commit) leaves the scene, and therefore the answer of every later query, unchanged; every other add_* call succeeds.", "quantifier": "every call history, every argument", "why_tests_cant": "Ranges over all histories and all later queries.", "anchors": ["blazert/scene.h:add_mesh", "blazert/scene.h:add_spheres", "blazert/scene.h:add_planes", "blazert/scene.h:add_cylinders", "blazert/scene.h:commit"]}
{"id": "C09", "title": "Committing again changes no answer", "statement": "Calling commit on a committed scene any number of further times changes the answer of no query.", "quantifier": "every call history, every ray", "why_tests_cant": "The second build appends a second tree to the node list; that no query ever sees it is a statement about all trees and all traversals.", "anchors": ["blazert/scene.h:commit", "blazert/bvh/builder.h:SAHBinnedBuilder::build"]}
{"id": "C10", "title": "Queries on committed scenes never index out of bounds", "statement": "On a committed BVH a query only dereferences existing nodes and, provided the tree is not deeper than the stack allows, only existing stack slots; it never runs into undefined behaviour.", "quantifier": "every collection, build option, ray (including NaN/inf components)", "why_tests_cant": "Memory safety of all executions cannot be observed by finitely many runs.", "anchors": ["blazert/bvh/accel.h:traverse", "blazert/datatypes.h:Stack", "blazert/bvh/builder.h:build_recursive"]}
{"id": "C11", "title": "The traversal stack is large enough for every tree the builder makes", "statement": "For every scene built with the default build options no traversal writes past the fixed-size traversal stack.", "quantifier": "every collection and ray, default options", "why_tests_cant": "Needs a scene with a very deep tree; quantifies over all scenes.", "anchors": ["blazert/defines.h:BLAZERT_MAX_TREE_DEPTH", "blazert/bvh/options.h:BVHBuildOptions", "blazert/datatypes.h:Stack", "blazert/bvh/accel.h:traverse"]}
{"id": "C12", "title": "Traversal terminates", "statement": "Every query on a committed BVH finishes, after visiting each node at most once.", "quantifier": "every collection, build option, ray", "why_tests_cant": "Termination for all inputs.", "anchors": ["blazert/bvh/accel.h:traverse"]}
{"id": "C13", "title": "Concurrent queries do not interfere", "statement": "When any number of queries run concurrently on one committed BVH, each with its own RayHit, every interleaving gives every query the same result as running it alone.", "quantifier": "every number of threads, every schedule", "why_tests_cant": "Schedules are unbounded and tests cannot control them.", "anchors": ["blazert/bvh/accel.h:traverse"]}
{"id": "C14", "title": "Every primitive ends up in exactly one leaf", "statement": "After build, the multiset of primitives stored in the leaves reachable from the root equals the collection; no primitive is lost or duplicated, and every node in the list is reachable.", "quantifier": "every collection, build option, std::partition implementation", "why_tests_cant": "Unbounded number of collections and tree shapes.", "anchors": ["blazert/bvh/builder.h:build_recursive", "blazert/bvh/builder.h:split", "blazert/bvh/builder.h:create_leaf"]}
{"id": "C15", "title": "Bounding volumes nest and are tight", "statement": "In a built BVH every node's box is exactly the union of the boxes of the primitives below it: it contains both child boxes and the boxes of all primitives below it, and every face is touched.", "quantifier": "every collection, every node", "why_tests_cant": "The inputs form a continuum (scenes, rays, options); a test fixes finitely many of them.", "anchors": ["blazert/bvh/bbox.h:compute_bounding_box", "blazert/datatypes.h:unity", "blazert/bvh/builder.h:build_recursive"]}
{"id": "C16", "title": "Depth and leaf-size limits are honoured", "statement": "No node is deeper than max_tree_depth, and every leaf either holds at most min_leaf_primitives primitives or lies exactly at max_tree_depth; with min_leaf_primitives at least 1 no leaf of a non-empty collection is empty.", "quantifier": "every collection, every build option", "why_tests_cant": "Unbounded tree shapes.", "anchors": ["blazert/bvh/builder.h:build_recursive", "blazert/bvh/options.h:BVHBuildOptions"]}
{"id": "C17", "title": "Build statistics are exact", "statement": "The returned statistics equal the true values for the tree just built: deepest level, number of leaves, number of branches, largest and smallest leaf.", "quantifier": "every collection, every build option", "why_tests_cant": "Must hold for every tree.", "anchors": ["blazert/bvh/statistics.h:BVHBuildStatistics", "blazert/bvh/builder.h:build_recursive"]}
{"id": "C18", "title": "Node count is bounded", "statement": "Building over n>=1 primitives (min_leaf_primitives>=1) produces at most 2n-1 nodes, so the reserved capacity 2n suffices and no reallocation happens; over n=0 it produces exactly one leaf.", "quantifier": "every collection size and option", "why_tests_cant": "Ranges over all n.", "anchors": ["blazert/bvh/builder.h:SAHBinnedBuilder::build"]}
{"id": "C19", "title": "Building never runs into undefined behaviour", "statement": "For every collection with finite boxes whose centers lie in their boxes, and every bin_size>=1 (non-zero), build returns normally: every bin index is in range, every float-to-unsigned cast is defined, every primitive lookup is in range.", "quantifier": "every well-formed collection and option", "why_tests_cant": "Undefined behaviour on a rare rounding-dependent input is invisible to tests.", "anchors": ["blazert/bvh/binbuffer.h:sort_collection_into_bins", "blazert/bvh/binbuffer.h:find_best_split_binned", "blazert/bvh/builder.h:build_recursive"]}
{"id": "C20", "title": "The box test never rejects a box the ray enters (exact arithmetic)", "statement": "If the ray meets the (closed) box of a node at some distance within the current [min,max] interval then intersect_node returns true.", "quantifier": "every box, every ray with unit direction, every interval", "why_tests_cant": "The inputs form a continuum (scenes, rays, options); a test fixes finitely many of them.", "anchors": ["blazert/bvh/intersect.h:intersect_node", "blazert/ray.h:Ray"]}
{"id": "C21", "title": "The box test never rejects a box the ray enters (floating point)", "statement": "The previous property survives rounding: with every arithmetic operation of the box test off by a relative error of at most half an ulp, the slack factor 1+4eps suffices for a box that is entered no later than the current max distance (up to that rounding) never to be rejected.", "quantifier": "every box, ray, interval, every pattern of rounding errors", "why_tests_cant": "Rounding-error patterns cannot be enumerated by tests.", "anchors": ["blazert/bvh/intersect.h:intersect_node"]}
{"id": "C22", "title": "Scaling the ray direction does not change the answer", "statement": "Multiplying the direction passed to the Ray constructor by any positive factor does not change which primitive is hit nor the reported distance.", "quantifier": "every scene, ray, positive factor", "why_tests_cant": "Relational property over a continuum of factors.", "anchors": ["blazert/ray.h:Ray::Ray", "blazert/bvh/intersect.h:intersect_node", "blazert/bvh/accel.h:traverse"]}
{"id": "C23", "title": "Negative zero in the direction behaves like zero", "statement": "Replacing a +0.0 component of the ray direction by -0.0 changes no answer.", "quantifier": "every scene and ray", "why_tests_cant": "Tests do not distinguish the two zeros.", "anchors": ["blazert/ray.h:Ray::Ray", "blazert/bvh/intersect.h:intersect_node"]}
{"id": "C24", "title": "Rays lying in a bounding-box face are not lost", "statement": "An axis-parallel ray whose origin lies exactly in the plane of a bounding-box face still finds the primitives that touch this plane.", "quantifier": "every scene and axis-parallel ray", "why_tests_cant": "The failing inputs have measure zero.", "anchors": ["blazert/bvh/intersect.h:intersect_node"]}
{"id": "C25", "title": "Sphere intersection is exact", "statement": "The ray/sphere test accepts exactly when the ray's line meets the sphere at a distance strictly between min hit distance and the closest distance so far, and it records the smallest such distance.", "quantifier": "every sphere of non-negative radius, every ray, every interval with non-negative min hit distance", "why_tests_cant": "The inputs form a continuum (scenes, rays, options); a test fixes finitely many of them.", "anchors": ["blazert/primitives/sphere.h:intersect_primitive", "blazert/primitives/sphere.h:prepare_traversal"]}
{"id": "C26", "title": "Sphere normals are outward unit normals", "statement": "After a sphere hit the reported normal has length 1 and points from the sphere's center to the hit point.", "quantifier": "every sphere of positive radius and every hit", "why_tests_cant": "The inputs form a continuum (scenes, rays, options); a test fixes finitely many of them.", "anchors": ["blazert/primitives/sphere.h:post_traversal"]}
{"id": "C27", "title": "Sphere bounding boxes", "statement": "The box of a sphere contains every point of the sphere and is the smallest such box; its center is in it.", "quantifier": "every center and non-negative radius", "why_tests_cant": "The inputs form a continuum (scenes, rays, options); a test fixes finitely many of them.", "anchors": ["blazert/primitives/sphere.h:get_primitive_bounding_box", "blazert/primitives/sphere.h:get_primitive_center"]}
{"id": "C28", "title": "Triangle intersection is exact up to the edge tolerance", "statement": "The ray/triangle test accepts every triangle that the ray crosses (boundary included; triangles parallel to the ray, and degenerate ones, are never reported) at a distance in [min, closest so far), records exactly this distance, and everything it accepts is a crossing of the triangle's plane whose barycentric coordinates are within the stated tolerance.", "quantifier": "every triangle, every ray, every interval", "why_tests_cant": "The inputs form a continuum (scenes, rays, options); a test fixes finitely many of them.", "anchors": ["blazert/primitives/trimesh.h:intersect_primitive", "blazert/primitives/trimesh.h:prepare_traversal"]}
{"id": "C29", "title": "Reported uv are the barycentric coordinates of the hit point", "statement": "After a mesh hit the reported (u,v) satisfy hit point = (1-u-v)*A + u*B + v*C for the vertices A, B, C of the reported face.", "quantifier": "every mesh, every hit", "why_tests_cant": "The inputs form a continuum (scenes, rays, options); a test fixes finitely many of them.", "anchors": ["blazert/primitives/trimesh.h:intersect_primitive", "blazert/primitives/trimesh.h:post_traversal"]}
{"id": "C30", "title": "Shared edges are watertight", "statement": "A ray that crosses the common edge of two triangles (in exact arithmetic) is reported as hitting, never slipping through between them; degenerate triangles are never hit.", "quantifier": "every pair of triangles with a common edge, every ray crossing it", "why_tests_cant": "The inputs form a continuum (scenes, rays, options); a test fixes finitely many of them.", "anchors": ["blazert/primitives/trimesh.h:intersect_primitive"]}
{"id": "C31", "title": "Triangle bounding boxes and centers", "statement": "The box of a mesh face contains every point of the triangle, is the smallest such box, and contains the face's center.", "quantifier": "every face", "why_tests_cant": "The inputs form a continuum (scenes, rays, options); a test fixes finitely many of them.", "anchors": ["blazert/primitives/trimesh.h:get_primitive_bounding_box", "blazert/primitives/trimesh.h:get_primitive_center"]}
{"id": "C32", "title": "Mesh normals", "statement": "A mesh hit reports a unit normal; if the three vertex normals agree (flat shading, as computed by the library for an isolated face) it is the geometric face normal.", "quantifier": "every mesh, every hit", "why_tests_cant": "The inputs form a continuum (scenes, rays, options); a test fixes finitely many of them.", "anchors": ["blazert/primitives/trimesh.h:TriangleMesh", "blazert/primitives/trimesh.h:post_traversal", "blazert/primitives/trimesh.h:calculate_face_normals"]}
{"id": "C33", "title": "Plane intersection is exact", "statement": "The ray/plane test accepts exactly when the ray crosses the (rotated) closed rectangle at a distance strictly between min hit distance and the closest distance so far, and records this distance.", "quantifier": "every rectangle with positive extents and orthogonal orientation, every ray with non-negative min hit distance", "why_tests_cant": "The inputs form a continuum (scenes, rays, options); a test fixes finitely many of them.", "anchors": ["blazert/primitives/plane.h:intersect_primitive"]}
{"id": "C34", "title": "Plane normals face the ray origin", "statement": "After a plane hit the reported normal is a unit vector perpendicular to the rectangle, on the side the ray comes from.", "quantifier": "every plane and hit", "why_tests_cant": "The inputs form a continuum (scenes, rays, options); a test fixes finitely many of them.", "anchors": ["blazert/primitives/plane.h:intersect_primitive", "blazert/primitives/plane.h:post_traversal"]}
{"id": "C35", "title": "Plane bounding boxes", "statement": "The box of a plane contains every point of the rotated rectangle, and the center.", "quantifier": "every plane with orthogonal orientation", "why_tests_cant": "The inputs form a continuum (scenes, rays, options); a test fixes finitely many of them.", "anchors": ["blazert/primitives/plane.h:get_primitive_bounding_box"]}
{"id": "C36", "title": "Cylinder hits are genuine", "statement": "Every cylinder hit reported lies on the surface of the (elliptic, rotated, capped) cylinder, at a positive distance, strictly nearer than the closest distance so far.", "quantifier": "every cylinder and ray", "why_tests_cant": "The inputs form a continuum (scenes, rays, options); a test fixes finitely many of them.", "anchors": ["blazert/primitives/cylinder.h:intersect_primitive"]}
{"id": "C37", "title": "Closest cylinder wins", "statement": "When the ray meets several cylinders of a collection the reported one is the closest.", "quantifier": "every cylinder collection and ray", "why_tests_cant": "The inputs form a continuum (scenes, rays, options); a test fixes finitely many of them.", "anchors": ["blazert/primitives/cylinder.h:intersect_primitive", "blazert/bvh/accel.h:traverse"]}
{"id": "C38", "title": "Cylinder bounding boxes", "statement": "The box of a cylinder contains every point of the cylinder.", "quantifier": "every center, semi-axes, height, orientation", "why_tests_cant": "The inputs form a continuum (scenes, rays, options); a test fixes finitely many of them.", "anchors": ["blazert/primitives/cylinder.h:get_primitive_bounding_box"]}
{"id": "C39", "title": "Cylinder normals", "statement": "The normal reported for a cylinder hit is perpendicular to the surface at the hit point in world coordinates.", "quantifier": "every cylinder and hit", "why_tests_cant": "The inputs form a continuum (scenes, rays, options); a test fixes finitely many of them.", "anchors": ["blazert/primitives/cylinder.h:intersect_primitive", "blazert/primitives/cylinder.h:post_traversal"]}
{"id": "C40", "title": "Distance to a sphere", "statement": "distance_to_surface(sphere, p) is the minimum of |p-q| over all points q of the sphere.", "quantifier": "every sphere, every point", "why_tests_cant": "The inputs form a continuum (scenes, rays, options); a test fixes finitely many of them.", "anchors": ["blazert/primitives/sphere.h:distance_to_surface"]}
{"id": "C41", "title": "Distance to a plane", "statement": "distance_to_surface(plane, p) is the minimum of |p-q| over all points q of the rectangle.", "quantifier": "every plane, every point", "why_tests_cant": "The inputs form a continuum (scenes, rays, options); a test fixes finitely many of them.", "anchors": ["blazert/primitives/plane.h:distance_to_surface"]}
{"id": "C42", "title": "Closest point on a triangle", "statement": "closest_point_on_triangle(v0,v1,v2,p) returns a point of the closed triangle, and no point of the triangle is closer to p.", "quantifier": "every non-degenerate triangle, every point", "why_tests_cant": "The inputs form a continuum (scenes, rays, options); a test fixes finitely many of them.", "anchors": ["blazert/primitives/trimesh_distance.h:closest_point_on_triangle"]}
{"id": "C43", "title": "Distance to a triangle of a mesh", "statement": "distance_to_surface(triangle, p) is the distance from p to the triangle of the mesh.", "quantifier": "every mesh face, every point", "why_tests_cant": "The inputs form a continuum (scenes, rays, options); a test fixes finitely many of them.", "anchors": ["blazert/primitives/trimesh.h:distance_to_surface"]}
{"id": "C44", "title": "Distance to a cylinder", "statement": "distance_to_surface(cylinder, p) is never smaller than zero, the search terminates, and for points above a cap it is the exact distance.", "quantifier": "every cylinder, every point", "why_tests_cant": "The inputs form a continuum (scenes, rays, options); a test fixes finitely many of them.", "anchors": ["blazert/primitives/cylinder.h:distance_to_surface"]}
{"id": "C45", "title": "product_sign flips exactly the sign", "statement": "product_sign(x,y) has the magnitude of x and the sign product of x and y, for every x and y including zeros and infinities.", "quantifier": "all floating-point values", "why_tests_cant": "2^64 or 2^128 inputs.", "anchors": ["blazert/datatypes.h:product_sign"]}
{"id": "C46", "title": "The traversal stack is last-in first-out", "statement": "Any sequence of push/pop/back that stays within capacity behaves like an abstract LIFO stack; pop on a completely full stack and push beyond capacity write outside the array.", "quantifier": "every operation sequence and capacity", "why_tests_cant": "All operation sequences.", "anchors": ["blazert/datatypes.h:Stack"]}
{"id": "C47", "title": "Primitive order is irrelevant", "statement": "Permuting the primitives of a collection changes neither whether a ray hits nor the reported hit distance.", "quantifier": "every collection, permutation, ray", "why_tests_cant": "Relational property over all permutations; the builder produces different trees.", "anchors": ["blazert/bvh/accel.h:traverse", "blazert/bvh/builder.h:SAHBinnedBuilder::build"]}
{"id": "C48", "title": "More geometry never hides a hit", "statement": "Adding primitives to a scene never turns a hit into a miss and never increases the reported distance.", "quantifier": "every scene, every extension, every ray", "why_tests_cant": "Relational property over all extensions.", "anchors": ["blazert/scene.h:intersect1", "blazert/bvh/accel.h:traverse"]}
{"id": "C49", "title": "Max hit distance cuts exactly", "statement": "Lowering the ray's max hit distance to m turns exactly the hits at distance >= m into misses and leaves all others as they were.", "quantifier": "every scene, ray, m", "why_tests_cant": "Relational property over a continuum.", "anchors": ["blazert/bvh/accel.h:traverse", "blazert/ray.h:Ray"]}
{"id": "C50", "title": "Embree scenes report the closest hit", "statement": "A query of a committed EmbreeScene<float> returns true exactly when the ray hits one of its geometries within its limits, and the distance is then the smallest one, in whatever order Embree calls the intersection callbacks and whichever calls it saves because of the bounds.", "quantifier": "every scene, ray, order of callbacks, every sound culling by Embree", "why_tests_cant": "The order of callbacks is decided inside Embree and cannot be controlled by tests.", "anchors": ["blazert/embree/scene.h:intersect1", "blazert/embree/primitives/EmbreeSphere.h:sphereIntersectFunc", "blazert/embree/primitives/EmbreePlane.h:planeIntersectFunc", "blazert/embree/primitives/EmbreeCylinder.h:cylinderIntersectFunc", "blazert/embree/primitives/EmbreeGeometryObject.h:setRayHit"]}
{"id": "C51", "title": "Embree queries and the RayHit argument", "statement": "A query of an EmbreeScene<float> that returns false leaves the RayHit untouched; the truth value and the members that are set (normal, uv, hit_distance, prim_id) do not depend on what the RayHit contained before, nor on any_hit.", "quantifier": "every scene, ray, RayHit, behaviour of Embree", "why_tests_cant": "The inputs form a continuum (scenes, rays, options); a test fixes finitely many of them.", "anchors": ["blazert/embree/scene.h:intersect1"]}
{"id": "C52", "title": "Embree hits name their geometry", "statement": "When a query of an EmbreeScene<float> returns true, geom_id and prim_id of the RayHit are those of the geometry that was hit, as returned by the add function.", "quantifier": "every scene and ray", "why_tests_cant": "The inputs form a continuum (scenes, rays, options); a test fixes finitely many of them.", "anchors": ["blazert/embree/scene.h:intersect1", "blazert/embree/primitives/EmbreeGeometryObject.h:setRayHit"]}
{"id": "C53", "title": "Every use of the Embree scene API is memory safe", "statement": "No sequence of add, commit and query calls on an EmbreeScene<float> reads outside a container, uses a deleted object, or queries an Embree scene that is not committed.", "quantifier": "every sequence of calls", "why_tests_cant": "All call sequences; a dangling pointer may go unnoticed in a test.", "anchors": ["blazert/embree/scene.h:EmbreeScene::add_spheres", "blazert/embree/scene.h:EmbreeScene::add_planes", "blazert/embree/scene.h:EmbreeScene::add_cylinders", "blazert/embree/scene.h:EmbreeScene::add_mesh", "blazert/embree/scene.h:EmbreeScene::commit"]}
{"id": "C54", "title": "All primitives passed to the Embree scene are in it", "statement": "add_spheres, add_planes and add_cylinders of EmbreeScene<float> put all the primitives passed into the scene, as those of BlazertScene do.", "quantifier": "every list of primitives", "why_tests_cant": "The inputs form a continuum (scenes, rays, options); a test fixes finitely many of them.", "anchors": ["blazert/embree/scene.h:EmbreeScene::add_spheres", "blazert/embree/scene.h:EmbreeScene::add_planes", "blazert/embree/scene.h:EmbreeScene::add_cylinders"]}
{"id": "C55", "title": "Embree occlusion agrees with intersection", "statement": "For every primitive class and every ray the occlusion callback reports an occlusion exactly when the intersection callback reports a hit.", "quantifier": "every primitive, ray, limits", "why_tests_cant": "The inputs form a continuum (scenes, rays, options); a test fixes finitely many of them.", "anchors": ["blazert/embree/primitives/EmbreeSphere.h:sphereOccludedFunc", "blazert/embree/primitives/EmbreePlane.h:planeOccludedFunc", "blazert/embree/primitives/EmbreeCylinder.h:cylinderOccludedFunc"]}
{"id": "C56", "title": "The two back-ends agree on primitives", "statement": "The bounds callbacks give the boxes of the native back-end, and the intersection callbacks report a hit for exactly the primitives, rays and limits for which the native tests do, at the same distance.", "quantifier": "every primitive, ray, limits", "why_tests_cant": "The inputs form a continuum (scenes, rays, options); a test fixes finitely many of them.", "anchors": ["blazert/embree/primitives/EmbreeSphere.h:sphereBoundsFunc", "blazert/embree/primitives/EmbreeSphere.h:sphereIntersectFunc", "blazert/embree/primitives/EmbreePlane.h:planeBoundsFunc", "blazert/embree/primitives/EmbreePlane.h:planeIntersectFunc", "blazert/embree/primitives/EmbreeCylinder.h:cylinderBoundsFunc", "blazert/embree/primitives/EmbreeCylinder.h:cylinderIntersectFunc"]}
{"id": "C57", "title": "Embree sees the mesh passed", "statement": "The vertices and faces Embree reads from the buffers shared by add_mesh are those passed to add_mesh.", "quantifier": "every mesh, every layout of the vector types", "why_tests_cant": "The layout depends on compiler flags; a test exercises one.", "anchors": ["blazert/embree/scene.h:EmbreeScene::add_mesh"]}
{"id": "C58", "title": "Distances to Embree objects", "statement": "distance_to_surface of EmbreeSphere and EmbreePlane is the minimal distance of the point to the surface.", "quantifier": "every object, every point", "why_tests_cant": "The inputs form a continuum (scenes, rays, options); a test fixes finitely many of them.", "anchors": ["blazert/embree/primitives/EmbreeSphere.h:EmbreeSphere::distance_to_surface", "blazert/embree/primitives/EmbreePlane.h:EmbreePlane::distance_to_surface"]}
{"id": "C59", "title": "Embree callbacks stay within the ray's limits", "statement": "An intersection callback that reports a hit does so at a distance strictly between tnear and tfar, so that it never makes tfar larger; one that does not leaves ray and hit untouched.", "quantifier": "every primitive, ray, limits", "why_tests_cant": "The inputs form a continuum (scenes, rays, options); a test fixes finitely many of them.", "anchors": ["blazert/embree/primitives/EmbreeSphere.h:sphereIntersectFunc", "blazert/embree/primitives/EmbreePlane.h:planeIntersectFunc", "blazert/embree/primitives/EmbreeCylinder.h:cylinderIntersectFunc"]}
{"id": "C60", "title": "Normals of Embree hits", "statement": "The normal an intersection callback reports is a unit vector perpendicular to the surface at the hit point: outward for spheres and cylinders, towards the ray's origin for planes.", "quantifier": "every primitive and hit", "why_tests_cant": "The inputs form a continuum (scenes, rays, options); a test fixes finitely many of them.", "anchors": ["blazert/embree/primitives/EmbreeSphere.h:sphereIntersectFunc", "blazert/embree/primitives/EmbreePlane.h:planeIntersectFunc", "blazert/embree/primitives/EmbreeCylinder.h:cylinderIntersectFunc"]}
{"id": "C61", "title": "The Newton search stops at stationary points", "statement": "The stop criterion distance_derivative of the search for the nearest point of an ellipse is, in each of its four instances, the derivative of the squared distance to the point of the half ellipse that is searched, so that the search stops before its 100th iteration only where this derivative is small.", "quantifier": "every ellipse, point and position", "why_tests_cant": "The inputs form a continuum (scenes, rays, options); a test fixes finitely many of them.", "anchors": ["blazert/primitives/cylinder.h:distance_derivative", "blazert/primitives/cylinder.h:newton_iteration", "blazert/primitives/cylinder.h:find_minimum_distance_to_ellipse"]}
{"id": "C62", "title": "An iteration is a Newton step", "statement": "single_newton_iteration returns x - R'(x)/R''(x) in each of its four instances, as documented, R being the squared distance from the query point to the point of the half ellipse that is searched.", "quantifier": "every ellipse, point and position where the second derivative is not zero", "why_tests_cant": "The inputs form a continuum (scenes, rays, options); a test fixes finitely many of them.", "anchors": ["blazert/primitives/cylinder.h:single_newton_iteration"]}
{"id": "C63", "title": "Distance to a circular cylinder is accurate", "statement": "For a cylinder with equal semi-axes a, distance_to_surface(cylinder, p) returns a non-negative number whose square differs from the square of the smallest distance of p to a point of the surface by no more than a * tol + 1e-20 * a * r + (a * epsilon)^2, r being the distance of p from the axis and tol the tolerance of the Newton search, in exact arithmetic: the search converges for every point.", "quantifier": "every radius, height, position, orientation and point", "why_tests_cant": "The inputs form a continuum (scenes, rays, options); a test fixes finitely many of them.", "anchors": ["blazert/primitives/cylinder.h:distance_to_surface", "blazert/primitives/cylinder.h:find_minimum_distance_to_ellipse", "blazert/primitives/cylinder.h:newton_iteration"]}
{"id": "C64", "title": "A scene whose data is left alone answers as if it had copied it", "statement": "Collections keep references to the containers passed to add_*, and the primitives in the leaves keep references to their elements. As long as the caller neither changes nor destroys the containers passed in accepted calls (others may be changed, also those of rejected calls), every sequence of add, commit and query calls behaves exactly as if everything passed had been copied.", "quantifier": "every program: any calls interleaved with any changes of unrelated memory", "why_tests_cant": "References into caller memory: tests keep their containers alive and unchanged.", "anchors": ["blazert/scene.h:BlazertScene::add_mesh", "blazert/scene.h:BlazertScene::add_spheres", "blazert/scene.h:BlazertScene::commit", "blazert/primitives/sphere.h:SphereCollection", "blazert/primitives/trimesh.h:primitive_from_collection", "blazert/primitives/cylinder.h:primitive_from_collection", "blazert/primitives/plane.h:primitive_from_collection"]}
{"id": "C65", "title": "Changing the data after adding it is harmless", "statement": "After add_* (or at least after commit) the caller may change, extend or destroy the containers passed, without any effect on the scene.", "quantifier": "every scene, every change of the caller's memory", "why_tests_cant": "Dangling references may go unnoticed in a test.", "anchors": ["blazert/primitives/sphere.h:SphereCollection", "blazert/primitives/plane.h:PlaneCollection", "blazert/primitives/trimesh.h:TriangleMesh", "blazert/primitives/cylinder.h:CylinderCollection", "blazert/scene.h:commit", "blazert/scene.h:intersect1"]}
{"id": "C66", "title": "The BVH only skips what the box test rejects", "statement": "A closest-hit query on a built BVH tests some of the primitives one after the other, each at most once; its answer is the result of these tests and nothing else; and a primitive is left out only if the box test rejected a node above it, using the closest distance found by the tests made before.", "quantifier": "every collection, every partition function, every ray, any arithmetic including NaN and overflow", "why_tests_cant": "All trees and all rays; the order of tests depends on both.", "anchors": ["blazert/bvh/accel.h:traverse", "blazert/bvh/intersect.h:intersect_node", "blazert/bvh/intersect.h:intersect_leaf"]}
{"id": "C67", "title": "Rounding never hides a primitive", "statement": "In double or float arithmetic, with all roundings: if the ray (as given, in exact arithmetic) meets the bounding box of a primitive at a parameter t that is non-negative and not below min_hit_distance, then a closest-hit query tests this primitive, unless a distance below t(1+u)^3 has been found (u: half an ulp), provided that no operation of the box tests over- or underflows, the direction has no component -0.0, and a ray parallel to the z faces does not start in the plane of one. If no other primitive is hit, the query answers what testing this primitive alone answers.", "quantifier": "every collection, tree, ray", "why_tests_cant": "Rounding errors accumulate along paths of the tree; no test can cover all rays and trees.", "anchors": ["blazert/bvh/accel.h:traverse", "blazert/bvh/intersect.h:intersect_node", "blazert/bvh/builder.h:SAHBinnedBuilder::build"]}
{"id": "C68", "title": "Sphere hits are on the sphere, with all roundings", "statement": "In double or float arithmetic: when a query, with or without any_hit, on a built sphere BVH returns true, the point origin + hit_distance * direction (exact, with the stored direction) satisfies | |x-c|^2 - r^2 | <= 2000 u L^2 for the sphere named by prim_id, u being half an ulp of one and L any bound on |origin-c|_1 + r; and the stored direction is a unit vector up to 11u. L must be between 2^-484 and 2^500 (double), 2^-51 and 2^60 (float).", "quantifier": "every sphere collection, partition, options, ray", "why_tests_cant": "Rounding errors on a continuum of inputs.", "anchors": ["blazert/primitives/sphere.h:intersect_primitive", "blazert/primitives/sphere.h:post_traversal", "blazert/bvh/accel.h:traverse", "blazert/ray.h:Ray"]}
{"id": "C69", "title": "Rounding loses no clear sphere hit", "statement": "In double or float arithmetic: if the ray starts outside a sphere and enters it, both by a margin of 400 u L^2 in |x-c|^2 - r^2, then a closest-hit query on the built BVH returns true and a distance no larger than the parameter of the inner point plus 106 n u L, n being the number of spheres and L a bound on the sizes of all coordinates.", "quantifier": "every sphere collection, tree and ray whose direction is a unit vector up to 16u and whose box tests stay within the range of the format", "why_tests_cant": "Rounding errors accumulate over the tests of a traversal.", "anchors": ["blazert/primitives/sphere.h:intersect_primitive", "blazert/bvh/accel.h:traverse", "blazert/bvh/intersect.h:intersect_node", "blazert/bvh/builder.h:SAHBinnedBuilder::build"]}
{"id": "C70", "title": "The cheapest cut is found", "statement": "find_best_split_binned returns an axis and a position such that no cut between bins, on any axis, that leaves primitives on both sides, has a smaller cost (number of primitives times surface area of their hull, summed over both sides), with all roundings of the format.", "quantifier": "every collection with finite boxes, every set of primitives, number of bins", "why_tests_cant": "The sweeps keep running hulls and counts; empty bins start from inverted boxes whose area overflows.", "anchors": ["blazert/bvh/binbuffer.h:find_best_split_binned", "blazert/bvh/binbuffer.h:sort_collection_into_bins", "blazert/bvh/binbuffer.h:calculate_box_surface"]}
{"id": "C71", "title": "The split made is the one that was evaluated", "statement": "The split of a node puts each primitive on the side on which it was counted when the cost of the cut was computed.", "quantifier": "every collection, every node, number of bins", "why_tests_cant": "A wrong split only costs performance, no test notices.", "anchors": ["blazert/bvh/binbuffer.h:find_best_split_binned", "blazert/bvh/builder.h:split"]}
{"id": "C72", "title": "No gaps between triangles, with all roundings", "statement": "In double or float arithmetic: a ray that meets the union of two triangles sharing an edge, clear of the outer edges, hits at least one of them, however close it passes to the shared edge.", "quantifier": "every pair of triangles, every ray", "why_tests_cant": "The rays concerned are within rounding errors of an edge; a random test never meets one.", "anchors": ["blazert/primitives/trimesh.h:intersect_primitive", "blazert/primitives/trimesh.h:Triangle"]}
{"id": "C73", "title": "Mesh hits are on the face, with all roundings", "statement": "In double or float arithmetic: when a query, with or without any_hit, on a built mesh BVH returns true, the ray (exact, along the stored direction) passes the three edges of the face named by prim_id on the same side, up to 8u + 35 u L^2, L being twice a bound on the distance (sum of the components) of its vertices from the ray origin and u half an ulp of one; and unless the ray is within 11 u L^2 of being parallel to the face, the point at hit_distance h is in its plane up to 12 u L^2 (L + h).", "quantifier": "every mesh, partition, options, ray", "why_tests_cant": "Rounding errors on a continuum of inputs.", "anchors": ["blazert/primitives/trimesh.h:intersect_primitive", "blazert/primitives/trimesh.h:post_traversal", "blazert/bvh/accel.h:traverse", "blazert/ray.h:Ray"]}
{"id": "C74", "title": "Rounding loses no clear mesh hit", "statement": "In double or float arithmetic: if the ray meets a face, not closer to its edges nor flatter than a multiple of u L^2, and no determinant underflows, then a closest-hit query on the built BVH returns true and a distance h with h + L <= (t + L)(1 + 60 u L^2 / |N.d|)(1 + 4u)^n, n being the number of faces and t the exact distance; if all vertices are within 1/5 of the ray origin the edges make no difference.", "quantifier": "every mesh, tree and ray whose direction is a unit vector up to 16u and whose box tests stay within the range of the format", "why_tests_cant": "Rounding errors accumulate over the tests of a traversal.", "anchors": ["blazert/primitives/trimesh.h:intersect_primitive", "blazert/bvh/accel.h:traverse", "blazert/bvh/intersect.h:intersect_node", "blazert/bvh/builder.h:SAHBinnedBuilder::build"]}
{"id": "C75", "title": "Tiny triangles do no harm", "statement": "A triangle test that accepts records a finite distance, so that adding a triangle which the ray does not meet never hides a hit on another one.", "quantifier": "every mesh, every ray, in double or float arithmetic", "why_tests_cant": "Needs a triangle whose determinant is subnormal, tested after another one was hit.", "anchors": ["blazert/primitives/trimesh.h:intersect_primitive", "blazert/bvh/accel.h:traverse"]}
{"id": "C76", "title": "Printed objects are JSON", "statement": "The text written by operator<< for rays, hits, nodes, trees, statistics, primitives, collections and scenes is JSON, as the comments beside these operators say.", "quantifier": "every object, whatever the stream prints for numbers and addresses", "why_tests_cant": "Output is looked at by eye; the structural errors concern empty collections and members that no test prints.", "anchors": ["blazert/primitives/sphere.h:operator<<", "blazert/primitives/plane.h:operator<<", "blazert/primitives/trimesh.h:operator<<", "blazert/primitives/cylinder.h:operator<<", "blazert/scene.h:operator<<", "blazert/ray.h:operator<<", "blazert/bvh/accel.h:operator<<", "blazert/bvh/node.h:operator<<", "blazert/bvh/statistics.h:operator<<"]}
{"id": "C77", "title": "Printed primitives can be told apart", "statement": "If the stream prints different numbers differently, two primitives with the same text are equal.", "quantifier": "every pair of primitives of one kind", "why_tests_cant": "Needs two triangles that differ in one coordinate only.", "anchors": ["blazert/primitives/sphere.h:operator<<", "blazert/primitives/plane.h:operator<<", "blazert/primitives/trimesh.h:operator<<", "blazert/primitives/cylinder.h:operator<<"]}
{"id": "C78", "title": "A scene answers with the closest of its geometries", "statement": "A query of a scene reports a hit only if one of its geometries (mesh, spheres, planes, cylinders), queried on its own, gives exactly the record reported, and no geometry on its own gives a smaller distance; if it reports none, the RayHit passed is untouched and no geometry gives a distance below the one it contained. It is free of undefined behaviour exactly if all geometries can be queried on their own.", "quantifier": "every scene, ray and RayHit, any arithmetic whose < is irreflexive and transitive", "why_tests_cant": "The RayHit is handed from one geometry to the next; the order of the geometries matters only where distances are equal.", "anchors": ["blazert/scene.h:BlazertScene::intersect1"]}
{"id": "C79", "title": "Reported distances are numbers within the limits", "statement": "In double or float arithmetic, for whatever values the geometry contains (infinities and NaN included) and a ray whose min_hit_distance is a non-negative number: a hit_distance reported by a committed scene is a number, not negative, and below max_hit_distance.", "quantifier": "every committed scene with geometry of all four kinds, every ray", "why_tests_cant": "Special values may enter at any place.", "anchors": ["blazert/scene.h:BlazertScene::intersect1", "blazert/primitives/sphere.h:intersect_primitive", "blazert/primitives/trimesh.h:intersect_primitive", "blazert/primitives/plane.h:intersect_primitive", "blazert/primitives/cylinder.h:intersect_primitive"]}
{"id": "C80", "title": "Rounding loses no clear hit in a scene", "statement": "In double or float arithmetic: if the ray clearly meets a sphere, a rectangle or a face of a committed scene, which may contain geometry of all kinds and may have been committed several times, the scene query reports a hit, at a distance not larger than that of this sphere, rectangle or face, up to the bounds of C69, C82 and C74. If it clearly enters a cylinder, or begins inside one, a hit is reported at a distance of at most 4 L (see C106; the closest cylinder need not win, C37).", "quantifier": "every scene and ray; spheres, rectangles, faces of meshes, cylinders", "why_tests_cant": "Rounding errors of four kinds of geometry.", "anchors": ["blazert/scene.h:BlazertScene::intersect1", "blazert/scene.h:BlazertScene::commit", "blazert/bvh/accel.h:traverse", "blazert/primitives/sphere.h:intersect_primitive", "blazert/primitives/trimesh.h:intersect_primitive"]}
{"id": "C81", "title": "Rectangle hits are on the rectangle, with all roundings", "statement": "In double or float arithmetic: when a query, with or without any_hit, on a built plane BVH returns true, the point origin + hit_distance * direction (exact, with the stored direction) differs by at most 600 u L + 40 e L in each coordinate from a point of the rectangle named by prim_id, u being half an ulp of one, e <= 1/1000 the deviation of its matrix from an orthogonal one, and L any bound on |origin-center|_1 + dx + dy between 2^-484 and 2^500 (double), 2^-51 and 2^60 (float), however flat the ray.", "quantifier": "every plane collection, partition, options, ray", "why_tests_cant": "Rounding errors on a continuum of inputs, flat rays in particular.", "anchors": ["blazert/primitives/plane.h:intersect_primitive", "blazert/primitives/plane.h:post_traversal", "blazert/bvh/accel.h:traverse", "blazert/ray.h:Ray"]}
{"id": "C82", "title": "Rounding loses no clear rectangle hit", "statement": "In double or float arithmetic: if the ray meets a rectangle at t, farther than M from its edges and later than M after min_hit_distance, at an angle whose sine is k, with M k >= 200 (u + e) L, then a closest-hit query on the built BVH returns true and a distance of at most t + M + 152 n (u + e) L, n being the number of rectangles, u half an ulp, e the deviation of the matrices from orthogonal ones and L a bound on all coordinates and sides.", "quantifier": "every plane collection, tree and ray whose direction is a unit vector up to 16u and whose box tests stay within the range of the format", "why_tests_cant": "Rounding errors accumulate over the tests of a traversal; boxes of rectangles are rounded too.", "anchors": ["blazert/primitives/plane.h:intersect_primitive", "blazert/primitives/plane.h:PlaneCollection::pre_compute_bounding_box", "blazert/bvh/accel.h:traverse", "blazert/bvh/intersect.h:intersect_node", "blazert/bvh/builder.h:SAHBinnedBuilder::build"]}
{"id": "C83", "title": "Scene hits are genuine, with all roundings", "statement": "In double or float arithmetic: when a query of a committed scene, with or without any_hit, reports a hit, geom_id is that of a geometry of the scene, the stored direction is a unit vector up to 11u, and the point origin + hit_distance * direction is on the sphere, rectangle, face or cylinder named by prim_id, up to the bounds of C68, C81, C73 and C89 (for cylinders under the conditions of C89).", "quantifier": "every committed scene, with geometry of any kind and committed any number of times, and every ray", "why_tests_cant": "Rounding errors on a continuum of inputs; four kinds of geometry and their order.", "anchors": ["blazert/scene.h:BlazertScene::intersect1", "blazert/scene.h:BlazertScene::commit", "blazert/bvh/accel.h:traverse", "blazert/primitives/sphere.h:intersect_primitive", "blazert/primitives/trimesh.h:intersect_primitive", "blazert/primitives/plane.h:intersect_primitive"]}
{"id": "C84", "title": "What any-hit queries test", "statement": "An any-hit query on a built BVH tests some of the primitives one after the other, each at most once, and answers from these tests only. Either its last test is the first to succeed, and the answer is that of this test alone; or all tests fail, every primitive left out lies below a node whose box was rejected with max_hit_distance, and the answer is that of the query without any_hit.", "quantifier": "every collection, every partition function, every ray, any arithmetic including NaN and overflow", "why_tests_cant": "All trees and all rays; tests run with one order of primitives.", "anchors": ["blazert/bvh/accel.h:traverse", "blazert/bvh/intersect.h:intersect_leaf", "blazert/bvh/intersect.h:intersect_node"]}
{"id": "C85", "title": "Any-hit and closest-hit queries agree, with all roundings", "statement": "In double or float arithmetic: a query of a committed scene of spheres, rectangles, meshes and cylinders with any_hit reports a hit exactly if the one without does, provided that max_hit_distance and the distance in the RayHit exceed 4 L and 2 L^3 / l, L being a bound on the distance of the geometry from the ray origin and l a lower bound for the computed determinants that are not zero. With the default limits this covers all sizes from 2^-100 to 2^100 (float: 2^-20 to 2^15) and determinants from 2^-700 (float: 2^-80). Without the bound on determinants it is false.", "quantifier": "every committed scene, every ray whose origin is not on the tube of a cylinder", "why_tests_cant": "Rounding errors on a continuum of inputs; the two queries stop at different places.", "anchors": ["blazert/scene.h:BlazertScene::intersect1", "blazert/bvh/accel.h:traverse", "blazert/primitives/sphere.h:intersect_primitive", "blazert/primitives/trimesh.h:intersect_primitive", "blazert/primitives/plane.h:intersect_primitive"]}
{"id": "C86", "title": "Sphere normals are accurate, with all roundings", "statement": "In double or float arithmetic: the normal reported with a hit on a sphere, with or without any_hit, has squared length one up to 11u, and each of its coordinates is that of (x-c)/r, x being the exact point at the reported distance, up to 2100 u (L/r)^2, where L is any bound for |origin|_1 + |c|_1 + r and 5000 u L^2 <= r^2.", "quantifier": "every sphere collection, partition, options, ray; r at least 2^-483 and L at most 2^498 (double), 2^-50 and 2^58 (float)", "why_tests_cant": "Rounding errors on a continuum of inputs; the point is recomputed from the rounded distance.", "anchors": ["blazert/primitives/sphere.h:post_traversal", "blazert/primitives/sphere.h:intersect_primitive", "blazert/bvh/accel.h:traverse"]}
{"id": "C87", "title": "Rectangle normals are accurate away from the sides, with all roundings", "statement": "In double or float arithmetic: the normal reported with a hit on a rectangle, with or without any_hit, whose point at the reported distance is farther than (185u + 11e) L from the sides, has squared length one up to 11u, is one of the two directions perpendicular to the rectangle up to 80u + e in each coordinate, and points to the side of the origin and against the ray, both up to rounding.", "quantifier": "every plane collection, partition, options, ray; e <= 1/1000 the deviation of the matrix from an orthogonal one", "why_tests_cant": "Rounding errors on a continuum of inputs; nine branches choose the normal.", "anchors": ["blazert/primitives/plane.h:post_traversal", "blazert/primitives/plane.h:intersect_primitive", "blazert/bvh/accel.h:traverse"]}
{"id": "C88", "title": "The distance to a sphere is accurate, with all roundings", "statement": "In double or float arithmetic: distance_to_surface(sphere, p) is the smallest distance of p to a point of the sphere up to 25 u L, L being any bound for |c-p|_1 + r between 2^-484 and 2^500 (double), 2^-51 and 2^60 (float).", "quantifier": "every sphere of non-negative radius and every point", "why_tests_cant": "The inputs form a continuum (scenes, rays, options); a test fixes finitely many of them.", "anchors": ["blazert/primitives/sphere.h:distance_to_surface"]}
{"id": "C89", "title": "Cylinder hits are on the cylinder, with all roundings", "statement": "In double or float arithmetic: when a query, with or without any_hit, on a built cylinder BVH returns true, the point origin + hit_distance * direction (exact, with the stored direction), in the coordinates of the elliptic cylinder named by prim_id, satisfies the equation b^2 x^2 + a^2 y^2 = a^2 b^2 of its tube up to (700u + 40e)(a^2 + b^2) L^2 and is between its caps up to (300u + 20e) L, or is at the height of a cap up to (300u + 20e) L and inside the tube up to the former bound, u being half an ulp of one, e <= 1/1000 the deviation of its matrix from an orthogonal one, and L any bound on |origin-center|_1 + a + b + h; provided that the origin is not on the tube (up to 60u (a^2 + b^2) L^2 in the equation), or is beyond the caps, that 1000 u a^2 <= b^2 and 1000 u b^2 <= a^2, and that the computed direction in the coordinates of the cylinder is not so close to being parallel to the axis or the caps, without being it, that underflow matters.", "quantifier": "every cylinder collection, partition, options, ray; L at most 2^100 and a, b at least 2^-100 (double), 2^10 and 2^-10 (float)", "why_tests_cant": "Rounding errors on a continuum of inputs; cancellation in the discriminant and in the distances of the caps.", "anchors": ["blazert/primitives/cylinder.h:intersect_primitive", "blazert/primitives/cylinder.h:post_traversal", "blazert/bvh/accel.h:traverse", "blazert/ray.h:Ray"]}
{"id": "C90", "title": "Barycentric coordinates of mesh hits are accurate, with all roundings", "statement": "In double or float arithmetic: with a hit on a mesh, with or without any_hit, at the reported distance h and coordinates (U, V), the point (1-U-V) A + U B + V C of the face named by prim_id differs from the point at distance h by at most 14 u L^2 (h + (3 + |U| + |V|) L) / |N.d| in each coordinate, and U, V and 1-U-V are at least -(8u + 60 u L^2 (1 + |U| + |V|)) / |N.d|, N being the vector perpendicular to the face, of twice its area, and L twice a bound on the distance of its vertices from the ray origin; rays with |N.d| < 11 u L^2 are excluded.", "quantifier": "every mesh, partition, options, ray", "why_tests_cant": "Rounding errors on a continuum of inputs; thin faces and flat rays in particular.", "anchors": ["blazert/primitives/trimesh.h:intersect_primitive", "blazert/primitives/trimesh.h:post_traversal", "blazert/bvh/accel.h:traverse"]}
{"id": "C91", "title": "Mesh normals are accurate, with all roundings", "statement": "In double or float arithmetic: the normal reported with a hit on a mesh, with or without any_hit, has squared length one up to 11u and the direction of the interpolation G of the stored vertex normals, weighted with the reported coordinates: its vector product with G is at most 80 u S in each coordinate, S being a bound for the coordinates of the stored normals, and its scalar product with G is positive, provided that G does not vanish up to 300 u S. For a face that shares no vertex with another one, the vector product with N = (B-A) x (C-A) is at most 75 u L^2 in each coordinate and the scalar product positive, provided that |N.d| is at least 1000 u (1 + L^2), L being twice a bound on the distance of its vertices from the ray origin.", "quantifier": "every mesh, partition, options, ray", "why_tests_cant": "Rounding errors on a continuum of inputs; three normalisations one after the other.", "anchors": ["blazert/primitives/trimesh.h:post_traversal", "blazert/primitives/trimesh.h:TriangleMesh", "blazert/primitives/trimesh.h:pre_compute_face_normal", "blazert/bvh/accel.h:traverse"]}
{"id": "C92", "title": "Cylinder normals are accurate, with all roundings", "statement": "In double or float arithmetic: the normal reported with a hit on an elliptic cylinder, with or without any_hit, has squared length one up to 11u. The reported point is on a cap, up to rounding, and the normal is the axis pointing out of that cap, up to 160 u + eps in each coordinate (eps: the error of the rotation matrix); or it is on the tube, up to rounding, and the normal is a positive multiple of the gradient (x/a^2, y/b^2, 0) there, turned by the matrix, up to (4300 u + 260 eps)(L/m)^2 in each coordinate, m being the smaller half axis and L a bound on the size and the distance. If the origin is within the solid, the normal on the tube may be the gradient that has not been turned (the defect C39). Assumed are the conditions of C89 and that (3000 u + 200 eps)(L/m)^2 is at most 1.", "quantifier": "every cylinder collection, partition, options, ray", "why_tests_cant": "Rounding errors on a continuum of inputs; which of the branches is taken depends on rounding.", "anchors": ["blazert/primitives/cylinder.h:intersect_primitive", "blazert/primitives/cylinder.h:post_traversal", "blazert/bvh/accel.h:traverse"]}
{"id": "C93", "title": "Normals and coordinates of scene hits are accurate, with all roundings", "statement": "In double or float arithmetic: when a committed scene, with any geometry and any number of commits, reports a hit, with or without any_hit and whatever the rayhit record was before, then geom_id is that of one of its geometries, and the normal is, up to rounding: for spheres the outward normal at the reported point (C86); for rectangles the normal on the side of the origin, away from the edges (C87); for cylinders that of the cap or of the tube at the point (C92); for meshes the normalised combination of the vertex normals with the reported coordinates (C91), which for a face sharing no vertex with others is the normal of the face. The reported coordinates of a mesh hit are the barycentric ones of the reported point (C90).", "quantifier": "every scene history, ray, rayhit record", "why_tests_cant": "Rounding errors on a continuum of inputs, and all combinations of geometries.", "anchors": ["blazert/scene.h:Scene", "blazert/bvh/accel.h:traverse", "blazert/primitives/sphere.h:post_traversal", "blazert/primitives/plane.h:post_traversal", "blazert/primitives/cylinder.h:post_traversal", "blazert/primitives/trimesh.h:post_traversal"]}
{"id": "C94", "title": "The builder's 32-bit counters do not wrap around", "statement": "Node offsets, child indices, bin indices and counts, primitive counts, depth and the counters of the statistics are unsigned int, and std::iota counts with an int. For collections of fewer than 2^32/3 primitives and options with fewer than 2^32/3 bins and min_leaf_primitives at least 1, building with such counters, wrapping around, gives exactly what building with unbounded counters gives: the same nodes and statistics, or the same undefined behaviour. The bound on the bins is sharp: one bin more and the size of the bin buffer wraps around, and building two spheres writes out of bounds.", "quantifier": "every collection below the bound, options below the bounds, std::partition, any arithmetic", "why_tests_cant": "Collections of billions of primitives cannot be built in a test.", "anchors": ["blazert/bvh/builder.h:build_recursive", "blazert/bvh/builder.h:SAHBinnedBuilder", "blazert/bvh/binbuffer.h:sort_collection_into_bins", "blazert/bvh/binbuffer.h:find_best_split_binned", "blazert/bvh/statistics.h:BVHBuildStatistics"]}
{"id": "C95", "title": "Hits of Embree scenes with all roundings", "statement": "If a query of an Embree scene made by calls of the API reports a hit, it is on an attached geometry, whatever callbacks Embree leaves out and in whichever order it calls the others. On the sphere, the point at the reported distance along the rounded direction satisfies the equation up to 2000 u L^2 (u half a unit in the last place of one, L the size of the coordinates), and the normal is the outward normal there up to 2300 u (L/r)^2. On the rectangle, the point is within 600 u L of it, and inside the edge the normal is that of the rectangle within 80 u, on the side of the ray's origin. prim_id is 0.", "quantifier": "every sequence of API calls, ray with direction of norm between 2^-51 and 2^60, sphere and rectangle of sizes in this range, float arithmetic with all roundings, any behaviour of Embree that keeps the ray", "why_tests_cant": "The inputs form a continuum (scenes, rays, options); a test fixes finitely many of them.", "anchors": ["blazert/embree/primitives/EmbreeSphere.h:sphereIntersectFunc", "blazert/embree/primitives/EmbreePlane.h:planeIntersectFunc", "blazert/embree/scene.h:intersect1"]}
{"id": "C96", "title": "Committing scenes with all roundings", "statement": "Committing a scene returns normally, whatever std::partition does: all casts to unsigned in the binning are defined, all bin indices are in range and all lookups succeed, although boxes, centers of triangles and bin coordinates are rounded. The numbers the user passed are zero or of moderate magnitude, radii are not negative, sides of rectangles are positive, and coordinates of vertices along an axis are equal or differ by at least 512 u times the largest coordinate. The last restriction is needed: a nearly flat mesh of five faces at height 0.7 makes commit cast -63 to unsigned.", "quantifier": "every scene made by calls of the API (meshes, spheres, rectangles, cylinders, committed before or not), every std::partition, double and float arithmetic with all roundings", "why_tests_cant": "The inputs form a continuum (scenes, rays, options); a test fixes finitely many of them.", "anchors": ["blazert/bvh/binbuffer.h:find_best_split_binned", "blazert/scene.h:commit", "blazert/primitives/trimesh.h:pre_compute_center", "blazert/primitives/plane.h:pre_compute_bounding_box", "blazert/primitives/cylinder.h:pre_compute_bounding_box"]}
{"id": "C97", "title": "Rays leaving a surface do not hit it again", "statement": "A ray that starts at the computed hit point of an earlier query and leaves the surface there (shadow or reflection ray) does not report the primitive of that hit, if its lower limit is large enough: 2060 u L^2 <= k m for spheres, 4230 u L + 282 e L <= k m for rectangles, 42 u L^3 + 12 u L^2 m <= k m for faces of meshes (u the rounding unit, L the size of the data, k how steeply the ray leaves, m the lower limit, e how far the rotation is from orthonormal; numbers of moderate size; for faces the first ray must not be flat). With the default lower limit of zero this is false (a sphere is reported again at distance 2^-53), and for cylinders it is false with larger limits too.", "quantifier": "every scene made by calls of the API, every hit point a first query returns, every ray leaving from there, double and float arithmetic with all roundings", "why_tests_cant": "The inputs form a continuum (scenes, rays, options); a test fixes finitely many of them.", "anchors": ["blazert/scene.h:intersect1", "blazert/ray.h", "blazert/primitives/sphere.h", "blazert/primitives/plane.h", "blazert/primitives/trimesh.h", "blazert/primitives/cylinder.h"]}
{"id": "C98", "title": "Rounding loses no clear hit in an Embree scene", "statement": "If the ray clearly meets the sphere or the rectangle of a committed EmbreeScene<float> closer than its upper limit (it is outside the sphere at the lower limit and inside at t by 400 u L^2; or it crosses the rectangle at t, a margin M away from the edges and the lower limit, 200 (u+e) L <= M k with k the sine of the angle), then every query returns true, whatever else is in the scene; and if there are no cylinders in it, the reported distance is at most t + M + 220 (n+1) (u+e) L, for n geometries.", "quantifier": "every sequence of API calls, every order of callbacks and every culling that is sound for the stored bounds, every ray, float arithmetic with all roundings", "why_tests_cant": "The inputs form a continuum (scenes, rays, options); a test fixes finitely many of them.", "anchors": ["blazert/embree/scene.h:intersect1", "blazert/embree/primitives/EmbreeSphere.h", "blazert/embree/primitives/EmbreePlane.h"]}
{"id": "C99", "title": "An Embree scene whose data is left alone answers as if it had copied it", "statement": "EmbreeSphere, EmbreePlane and EmbreeCylinder keep references to the first element of the vectors of centers and rotations passed, and add_mesh shares the buffers of vertices and faces with Embree. As long as the caller neither changes nor destroys these containers, every sequence of add, commit and query calls on EmbreeScene behaves exactly as if everything passed had been copied. The vectors of numbers (radii, side lengths, semi-axes, heights) may be changed or destroyed right after the call.", "quantifier": "every program: any calls interleaved with any changes of unrelated memory, any behaviour of Embree left open, any arithmetic", "why_tests_cant": "References into caller memory: tests keep their containers alive and unchanged.", "anchors": ["blazert/embree/scene.h:add_mesh", "blazert/embree/scene.h:add_spheres", "blazert/embree/scene.h:add_planes", "blazert/embree/scene.h:add_cylinders", "blazert/embree/scene.h:commit", "blazert/embree/primitives/EmbreeSphere.h:EmbreeSphere", "blazert/embree/primitives/EmbreePlane.h:EmbreePlane", "blazert/embree/primitives/EmbreeCylinder.h:EmbreeCylinder"]}
{"id": "C100", "title": "Changing the data of an Embree scene after adding it is harmless", "statement": "After add_* (or at least after commit) the caller may change or destroy the containers passed to an EmbreeScene, without any effect on the scene.", "quantifier": "every scene, every change of the caller's memory", "why_tests_cant": "Dangling references may go unnoticed in a test.", "anchors": ["blazert/embree/scene.h:add_mesh", "blazert/embree/scene.h:add_spheres", "blazert/embree/scene.h:commit", "blazert/embree/scene.h:intersect1", "blazert/embree/primitives/EmbreeSphere.h:EmbreeSphere", "blazert/embree/primitives/EmbreePlane.h:EmbreePlane", "blazert/embree/primitives/EmbreeCylinder.h:EmbreeCylinder"]}
{"id": "C101", "title": "Rays that are not finite, or without a direction, hit nothing", "statement": "If a component of the origin of a ray is an infinity or NaN, or the length of the direction passed to its constructor is computed as zero, infinity or NaN (a zero vector, components that are not finite, or components so small or so large that their squares underflow or overflow), then intersect1 of a committed scene reports no hit and leaves the record passed as it is.", "quantifier": "all scenes of any geometry and any values, committed any number of times; all such rays; double and float, and any format in which zero and the tolerance are numbers", "why_tests_cant": "Special values spread through hundreds of operations in four different primitive tests; tests try a few at most.", "anchors": ["blazert/scene.h:intersect1", "blazert/ray.h:Ray", "blazert/primitives/trimesh.h:intersect_primitive", "blazert/primitives/sphere.h:intersect_primitive", "blazert/primitives/plane.h:intersect_primitive", "blazert/primitives/cylinder.h:intersect_primitive"]}
{"id": "C102", "title": "With Embree, rays that are not finite or without a direction hit nothing", "statement": "The same for EmbreeScene: for a ray with a component of the origin that is not finite, or a direction whose computed length is zero, infinity or NaN, the callbacks record nothing and intersect1 reports no hit.", "quantifier": "all Embree scenes, all such rays, all traversal orders of Embree", "why_tests_cant": "The inputs form a continuum (scenes, rays, options); a test fixes finitely many of them.", "anchors": ["blazert/embree/scene.h:intersect1", "blazert/embree/primitives/EmbreeSphere.h:sphereIntersectFunc", "blazert/embree/primitives/EmbreePlane.h:planeIntersectFunc", "blazert/embree/primitives/EmbreeCylinder.h:cylinderIntersectFunc", "blazert/ray.h:Ray"]}
{"id": "C103", "title": "With all roundings, hits on Embree cylinders are on their surface", "statement": "If intersect1 of an EmbreeScene reports a hit on an elliptic cylinder, the reported distance is not negative and the point at it along the ray is on the tube between its ends, or on a cap, up to a stated multiple of the unit of rounding (times the sizes) and of the deviation of the rotation matrix from an orthogonal one; prim_id is 0.", "quantifier": "all states of Embree scenes reached by calls of its API, all traversal orders and culling of Embree, all rays and cylinders of moderate size, except origins on the tube between the caps, directions nearly but not exactly parallel to the axis or the caps, and very flat ellipses; float, and any format that rounds monotonically", "why_tests_cant": "There are three copies of the test of the tube, with different slips in branches that should not be reached; whether rounding can reach them is a question about all floats.", "anchors": ["blazert/embree/scene.h:intersect1", "blazert/embree/primitives/EmbreeCylinder.h:cylinderIntersectFunc"]}
{"id": "C104", "title": "With all roundings, normals of Embree cylinders are outward normals", "statement": "With such a hit, the reported normal has length 1 up to rounding, and is the outward normal of the cap, or of the tube, at the reported point, turned into the coordinates of the scene, up to rounding.", "quantifier": "as before, with the unit of rounding small against the square of the smallest half axis over the size", "why_tests_cant": "The inputs form a continuum (scenes, rays, options); a test fixes finitely many of them.", "anchors": ["blazert/embree/scene.h:intersect1", "blazert/embree/primitives/EmbreeCylinder.h:cylinderIntersectFunc"]}
{"id": "C105", "title": "Rounding loses no clear hit on a cylinder", "statement": "If a ray clearly enters an elliptic cylinder - at one parameter it is outside by a stated multiple of the unit of rounding, above a cap but within the tube or beside the tube but between the caps, and at a later one it is inside by that margin - then both intersectors record a hit, whose distance is that of the entry: a point on the surface, not later than the parameter inside, up to rounding. Rays that begin clearly inside are recorded with the exit. Embree scenes report a hit whenever such a ray meets the bounds of the cylinder within its limits. (The margins cannot be dropped: a ray through the rim and then deep inside is lost.)", "quantifier": "all rays and cylinders of moderate size with a rotation matrix orthogonal up to a stated error, tube and cap entries, all states and all traversal orders of Embree scenes; double, float, and any format that rounds monotonically", "why_tests_cant": "The inputs form a continuum (scenes, rays, options); a test fixes finitely many of them.", "anchors": ["blazert/primitives/cylinder.h:intersect", "blazert/embree/primitives/EmbreeCylinder.h:cylinderIntersectFunc", "blazert/embree/primitives/EmbreeCylinder.h:cylinderOccludedFunc", "blazert/embree/scene.h:intersect1"]}
{"id": "C106", "title": "Queries on cylinders lose no clear hit", "statement": "If a ray clearly enters one of the cylinders of a collection, or begins clearly inside it, and meets its stored box within the limits, then a query on any tree built over the collection reports a hit, whichever of the cylinders are tested and in which order: though later tests overwrite earlier hits, they always leave a finite distance below the limit.", "quantifier": "all collections of cylinders of moderate size, all build options and outcomes of std::partition, all rays whose origin is not on a tube; double, float, and any format that rounds monotonically", "why_tests_cant": "The inputs form a continuum (scenes, rays, options); a test fixes finitely many of them.", "anchors": ["blazert/primitives/cylinder.h:intersect", "blazert/bvh/accel.h:traverse", "blazert/primitives/cylinder.h:post_traversal"]}
{"id": "C107", "title": "Rays clear of all geometry hit nothing, with all roundings", "statement": "If a ray stays away from every sphere, rectangle, face and cylinder of a scene by more than a stated multiple of the unit of rounding, up to a parameter T, then whatever a closest-hit or any-hit query reports is beyond T; if it does so up to its upper limit, or for good, the query reports no hit. So nothing that is not in the way is reported to be in the way. The same holds for spheres, rectangles and cylinders in Embree scenes.", "quantifier": "all committed scenes with any history, of all four kinds of geometry of moderate size, all rays; all states of Embree scenes without meshes and all traversal orders; double and float", "why_tests_cant": "The inputs form a continuum (scenes, rays, options); a test fixes finitely many of them.", "anchors": ["blazert/bvh/accel.h:traverse", "blazert/scene.h:intersect1", "blazert/primitives/sphere.h:intersect", "blazert/primitives/plane.h:intersect", "blazert/primitives/trimesh.h:intersect", "blazert/primitives/cylinder.h:intersect", "blazert/embree/scene.h:intersect1"]}
{"id": "C108", "title": "The two back-ends report the same distance, up to rounding", "statement": "If a ray is clear of all geometry of a native scene and of an Embree scene until a parameter T, and clearly enters a sphere, or clearly crosses a rectangle, that is in both scenes before tau, then both back-ends report a hit, and both distances are between T and tau up to a stated multiple of the unit of rounding; so they differ by less than tau - T plus this error.", "quantifier": "all committed native scenes in float with geometry of any kind, all Embree scenes of spheres and rectangles in any committed state, all traversal orders of Embree and outcomes of std::partition, all unit directions", "why_tests_cant": "The inputs form a continuum (scenes, rays, options); a test fixes finitely many of them.", "anchors": ["blazert/scene.h:intersect1", "blazert/embree/scene.h:intersect1", "blazert/primitives/sphere.h:intersect", "blazert/primitives/plane.h:intersect", "blazert/embree/primitives/EmbreeSphere.h:sphereIntersectFunc", "blazert/embree/primitives/EmbreePlane.h:planeIntersectFunc"]}
{"id": "C109", "title": "The closest point on a triangle is on it, with all roundings", "statement": "In double or float arithmetic: closest_point_on_triangle returns finite numbers, and the point is within 80 u L in each coordinate of a point of the triangle, L bounding the coordinates of the first vertex, the sum of the 1-norms of the two edges at it, and the 1-norm of its difference to the point asked for; so the distance is never underestimated by more than rounding. The triangle must not be degenerate: (twice its area)^2 is at least 100 u L^4.", "quantifier": "all triangles that are not degenerate up to rounding and all points, sizes from 2^-200 to 2^200 (double) and 2^-24 to 2^25 (float)", "why_tests_cant": "Which of seven regions is taken depends on rounding; the quotients may exceed one and the determinant may be lost.", "anchors": ["blazert/primitives/trimesh_distance.h:closest_point_on_triangle", "blazert/primitives/trimesh_distance.h:r0", "blazert/primitives/trimesh_distance.h:r1", "blazert/primitives/trimesh_distance.h:r2", "blazert/primitives/trimesh_distance.h:r6"]}
{"id": "C110", "title": "The point computed on a triangle is nearly the closest one, with all roundings", "statement": "In double or float arithmetic: for every point of the triangle, the square of its distance from the point asked for is at least that of the distance of the computed point (exact), less 5200 u L^6 / |n|^2, n being the vector perpendicular to the triangle of twice its area, L and the condition |n|^2 >= 100 u L^4 as in C109.", "quantifier": "all triangles that are not degenerate up to rounding and all points, sizes from 2^-200 to 2^200 (double) and 2^-24 to 2^25 (float)", "why_tests_cant": "The region is chosen by rounded determinants; a wrong region must not matter.", "anchors": ["blazert/primitives/trimesh_distance.h:closest_point_on_triangle", "blazert/primitives/trimesh_distance.h:r0", "blazert/primitives/trimesh_distance.h:r1", "blazert/primitives/trimesh_distance.h:r2", "blazert/primitives/trimesh_distance.h:r3", "blazert/primitives/trimesh_distance.h:r4", "blazert/primitives/trimesh_distance.h:r5", "blazert/primitives/trimesh_distance.h:r6"]}
{"id": "C111", "title": "Distance to a rectangle, with all roundings", "statement": "In double or float arithmetic, for a point at the place (x, y) of the plane of a rectangle and at the height h above or below it: distance_to_surface returns the largest number, or |h| up to 6 u L + 4 e L (u the unit of rounding, e how far the rotation is from orthonormal, L the size of rectangle and distance). If the rectangle is centered on the z axis, it is |h| up to that whenever the place is at least 8 u L + 4 e L inside its edges, and the largest number whenever it is more than that outside (elsewhere the choice is wrong, see C41).", "quantifier": "all rectangles and points, sizes from 2^-484 to 2^500 (double) and 2^-51 to 2^60 (float)", "why_tests_cant": "The inputs form a continuum (scenes, rays, options); a test fixes finitely many of them.", "anchors": ["blazert/primitives/plane.h:distance_to_surface"]}
{"id": "C112", "title": "Distance to a cylinder from points over its caps, with all roundings", "statement": "In double or float arithmetic: for a point straight above or below a cap of an elliptic cylinder - in the coordinates of the cylinder at (x, y, z) with x^2/a^2 + y^2/b^2 <= 1 - m, 60 (u + e) L <= m r, and |z| >= h/2 + 9 u L + 4 e L (u the unit of rounding, e how far the rotation is from orthonormal, L the size, r at most the half axes) - distance_to_surface returns |z| - h/2, up to 9 u L + 4 e L; neither blaze::isZero nor the tolerance of the search matters.", "quantifier": "all cylinders and such points, half axes from 2^-484, sizes to 2^500 (double), from 2^-51 and to 2^60 (float)", "why_tests_cant": "The branch is chosen by a rounded equation of the ellipse; a test looks at a few points.", "anchors": ["blazert/primitives/cylinder.h:distance_to_surface"]}
{"id": "C113", "title": "Distances to cylinders are not negative, with all roundings", "statement": "In double or float arithmetic, for every cylinder and point of moderate size, distance_to_surface is not less than zero; it may be NaN. (Outside of these sizes -1 is returned, see C44.)", "quantifier": "all cylinders with half axes from 2^-484 and sizes to 2^500 (double), from 2^-51 and to 2^60 (float), any height, all points at such distances", "why_tests_cant": "The last branch, which returns -1, is reached only if the equation of the ellipse is NaN.", "anchors": ["blazert/primitives/cylinder.h:distance_to_surface"]}
{"id": "C114", "title": "Distances to cylinders between their caps are not too small, with all roundings", "statement": "In double or float arithmetic: for a point inside or outside of an elliptic cylinder, between its caps by 9 u L + 4 e L, whatever number distance_to_surface returns is not negative and is the distance to some point of the surface, up to 120 u L^2 + 34 e L^2 in its square and m in the equation of the ellipse, 60 (u + e) L <= m r (u the unit of rounding, e how far the rotation is from orthonormal, L the size, r at most the half axes). So the distance is never underestimated by more than rounding, whatever the Newton search does; it may be overestimated or NaN (C44). blaze::isZero must say that the point is not on the axis.", "quantifier": "all cylinders and such points, half axes from 2^-484, sizes to 2^484 (double), from 2^-51 and to 2^50 (float), any tolerance of the search", "why_tests_cant": "The search has no guarantee to converge; that it ends anywhere must not produce a distance that is too small.", "anchors": ["blazert/primitives/cylinder.h:distance_to_surface", "blazert/primitives/cylinder.h:find_minimum_distance_to_ellipse", "blazert/primitives/cylinder.h:ellipse_equation"]}
{"id": "C115", "title": "Distances to cylinders are not too small from anywhere, with all roundings", "statement": "In double or float arithmetic: for every point, inside or outside of an elliptic cylinder, between, near or beyond its caps, whatever number distance_to_surface returns is not negative and is the distance to some point of the surface, up to 240 u L^2 + 52 e L^2 + 3 d L in its square and m in the equation of the ellipse, 60 (u + e) L <= m r (u, e, L, r as in C114; d is how far from the axis a point may be that blaze::isZero takes to be on it, at most r/2). So the distance is never underestimated by more than rounding; it may be overestimated or NaN (C44).", "quantifier": "all cylinders and points, half axes from 2^-484, sizes to 2^484 (double), from 2^-51 and to 2^50 (float), any tolerance of the search", "why_tests_cant": "Ten branches, chosen by rounded comparisons; at the edges between them the wrong one may be taken, which must not matter.", "anchors": ["blazert/primitives/cylinder.h:distance_to_surface", "blazert/primitives/cylinder.h:find_minimum_distance_to_ellipse", "blazert/primitives/cylinder.h:ellipse_equation"]}
{"id": "C116", "title": "The reported distance to a cylinder is not below the true one", "statement": "In double or float arithmetic: every lower bound D of the true distances, over the reals, from a point p anywhere to the points of the surface of a cylinder (the lateral surface and both caps) satisfies D <= sqrt(v^2 + e) + mu L for the number v that distance_to_surface returns, where e and mu are the errors of C115.", "quantifier": "every cylinder and every point within the sizes of C115, every result of the iteration", "why_tests_cant": "The infimum is over a continuum of surface points, and it is compared with a rounded result.", "anchors": ["blazert/primitives/cylinder.h:distance_to_surface", "blazert/primitives/cylinder.h:find_minimum_distance_to_ellipse", "blazert/primitives/cylinder.h:ellipse_equation"]}
{"id": "C117", "title": "The reported distance to a cylinder is not below the true one in space", "statement": "In double or float arithmetic: every lower bound D of the true distances in space, over the reals, from a point p anywhere to the points of the surface of a cylinder with a center and an orientation matrix that is orthonormal up to eps satisfies D <= (1 + 2 eps) (sqrt(v^2 + e) + mu L) for the number v that distance_to_surface returns, where e and mu are the errors of C115.", "quantifier": "every cylinder, every nearly orthonormal orientation and every point within the sizes of C115, every result of the iteration", "why_tests_cant": "The infimum is over a continuum of surface points in a rotated system.", "anchors": ["blazert/primitives/cylinder.h:distance_to_surface", "blazert/primitives/cylinder.h:find_minimum_distance_to_ellipse", "blazert/primitives/cylinder.h:ellipse_equation"]}
{"id": "C118", "title": "The point computed on a triangle is near the closest one, with all roundings", "statement": "In double or float arithmetic, for every triangle that is clearly not degenerate and every point P: the point that closest_point_on_triangle returns is within 80 u L of a point Y of the triangle, and the square of the distance between Y and the point of the triangle that is closest to P is at most 5200 u L^6 / |n|^2 + 400 u L^2 (n perpendicular to the triangle, of twice its area).", "quantifier": "every triangle and point within the sizes of C109", "why_tests_cant": "C110 alone would allow a point far away that is nearly as close; excluding this for all triangles and points takes convexity.", "anchors": ["blazert/primitives/trimesh_distance.h:closest_point_on_triangle", "blazert/primitives/trimesh_distance.h:r0", "blazert/primitives/trimesh_distance.h:r1", "blazert/primitives/trimesh_distance.h:r2", "blazert/primitives/trimesh_distance.h:r3", "blazert/primitives/trimesh_distance.h:r4", "blazert/primitives/trimesh_distance.h:r5", "blazert/primitives/trimesh_distance.h:r6"]}
{"id": "C119", "title": "From inside its tube, the distance to a cylinder is at most that to the nearer cap, with all roundings", "statement": "In double or float arithmetic: for a point that is at (x, y, z) in the coordinates of an elliptic cylinder, with x^2/a^2 + y^2/b^2 <= 1 - m (m as in C112) and z anything, whatever number distance_to_surface returns is at most | |z| - h/2 |, up to 18 u L + 8 e L.", "quantifier": "all cylinders and such points, every result of the iteration, sizes as in C112", "why_tests_cant": "The search may return anything, also NaN; the bound must hold whatever it returns, as long as the result is a number.", "anchors": ["blazert/primitives/cylinder.h:distance_to_surface", "blazert/primitives/cylinder.h:find_minimum_distance_to_ellipse", "blazert/primitives/cylinder.h:ellipse_equation"]}
{"id": "C120", "title": "The closest point on a triangle is unique and independent of the order of the vertices", "statement": "In exact arithmetic, for every triangle that is not degenerate and every point P: a point is the point of the triangle closest to P if and only if it is the one closest_point_on_triangle returns; so it returns the same point for every order of the three vertices.", "quantifier": "all triangles that are not degenerate, all points, all orders of the vertices", "why_tests_cant": "The seven regions change their roles with the order of the vertices; every combination would have to be tried with a continuum of triangles.", "anchors": ["blazert/primitives/trimesh_distance.h:closest_point_on_triangle", "blazert/primitives/trimesh_distance.h:r0", "blazert/primitives/trimesh_distance.h:r1", "blazert/primitives/trimesh_distance.h:r2", "blazert/primitives/trimesh_distance.h:r3", "blazert/primitives/trimesh_distance.h:r4", "blazert/primitives/trimesh_distance.h:r5", "blazert/primitives/trimesh_distance.h:r6"]}
{"id": "C121", "title": "The closest point on a triangle moves no faster than the point given", "statement": "In exact arithmetic, for every triangle that is not degenerate and two points P and P': the points that closest_point_on_triangle returns for them are at most |P - P'| apart, and their distances from P and P' differ by at most |P - P'|.", "quantifier": "all triangles that are not degenerate, all pairs of points", "why_tests_cant": "The two points may belong to different regions; a jump at a border between regions would only be seen by a test that looks there.", "anchors": ["blazert/primitives/trimesh_distance.h:closest_point_on_triangle", "blazert/primitives/trimesh_distance.h:r0", "blazert/primitives/trimesh_distance.h:r1", "blazert/primitives/trimesh_distance.h:r2", "blazert/primitives/trimesh_distance.h:r3", "blazert/primitives/trimesh_distance.h:r4", "blazert/primitives/trimesh_distance.h:r5", "blazert/primitives/trimesh_distance.h:r6"]}
{"id": "C122", "title": "Exchanging two vertices hardly moves the closest point, with all roundings", "statement": "In double or float arithmetic, for every triangle v0, v1, v2 that is clearly not degenerate and every point: the points that closest_point_on_triangle returns for the orders v0 v1 v2 and v0 v2 v1 of the vertices are within 80 u L (in each coordinate) of two points Y and Y' with |Y - Y'|^2 <= 4 (5200 u L^6 / |n|^2 + 400 u L^2).", "quantifier": "every triangle and point within the sizes of C109", "why_tests_cant": "The two calls may choose different regions; all triangles and points near the borders of the regions would have to be tried.", "anchors": ["blazert/primitives/trimesh_distance.h:closest_point_on_triangle", "blazert/primitives/trimesh_distance.h:r0", "blazert/primitives/trimesh_distance.h:r1", "blazert/primitives/trimesh_distance.h:r2", "blazert/primitives/trimesh_distance.h:r3", "blazert/primitives/trimesh_distance.h:r4", "blazert/primitives/trimesh_distance.h:r5", "blazert/primitives/trimesh_distance.h:r6"]}
