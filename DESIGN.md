# Formal model of crys-gsu in Lean 4

The target is the Python package in `/repo/crysgsu` (surface grids "GSU": loading, storing,
decomposing, refining, remeshing, droplet flights, converters).  The model lives in
`lean/Verif/`; `properties.jsonl` lists the properties, `MANIFEST.json` maps them to theorems.

## Trusted base

* Lean 4.33.0 kernel.  Theorems depend at most on the standard axioms `propext`,
  `Classical.choice`, `Quot.sound`; `scripts/audit.sh` prints them for every theorem of the manifest.
  No axioms of our own, no `sorry`, no `native_decide`/`bv_decide`.
* The hand translation of Python to Lean.  Every model definition cites the file and lines it
  follows and names its simplifications.
* What is *not* modelled (assumed or left out): the CPython interpreter itself, the file system,
  numpy/scipy/mpi4py internals, printing to the console (apart from `print_info`), IEEE arithmetic
  (the format of floats, their printing, reading, rounding, addition, multiplication and division are modelled).
  - Coordinates and data are an arbitrary type `F` wherever the code only moves them around
    (load/store, decompositions, transformations), so there the theorems hold for real doubles too.
  - Where arithmetic matters (geometry, ice budget, averages) the model computes in an ordered
    field or in the real numbers; rounding errors are not covered by those theorems.
  - `'{:.18e}'.format` / `float()` are in most theorems any pair of functions with the law
    "parsing what was printed gives the number back, the text is not empty and has no white
    space" (`Codec.Lawful`).  For the real binary64 format the law is proved (`C119_lawful`), so
    these theorems hold for the numbers the code has.  What is trusted there: CPython prints and reads
    correctly rounded (it does where doubles are IEEE), as `Model/Double.lean` says; `float()` is
    modelled for ASCII texts.
  - `round(x, 10)` is an arbitrary function from points to keys in most theorems; `Double.key` in
    `Model/Double.lean` is the real one, for which C119 to C121 are stated.  In Python a NaN is not equal to
    itself, in the model its key is; the theorems about keys are stated for finite coordinates.

## How Python is modelled

* **Objects.** Nodes, edges, faces, zones are mutable Python objects with identity.  An object is
  a natural number; each attribute is a map from object to value in one state record
  (`Grid`), i.e. the Burstall memory model.  Object creation takes the next unused number.
  Edge, Face and Zone compare by identity.  `Node.__eq__` compares rounded coordinates
  (`node.py:53`), therefore `in`, `list.remove` on node lists use rounded coordinates, as in Python.
* **Exceptions** are values of `Err`; every function that can raise returns `Except Err _`. The objects as an exception leaves them
  behind are modelled for the decompositions (`Model/Left.lean`, property C111), for `load` (`Model/Stream.lean`, property C112) and for
`load_faces_calc_data`; for `store` the content of the file is (`Model/Broken.lean`, properties C113 and C114), for `collapse_edge` the
grid again (`Model/Shrink.lean`, property C115).
  Index errors, negative indexes, missing dictionary keys, `list.remove` of an absent element and
  division by zero are modelled.
* **Dictionaries** are association lists in insertion order; **strings** are lists of characters;
  a **text file** is a list of characters that is cut into lines the way `readline` does it.
* **Randomness, KD-trees, argmin, MPI** are universally quantified oracles / explicit functions.

## Plan per property

| id | model | proof |
|----|-------|-------|
| C01 | `Grid` state, add/link/find operations, `load` from parsed zones | invariant over the face loop |
| C02 | same | exact characterisation of the failing link |
| C03 | `find_near_node`, `add_node` | invariant "bag = keys of nodes, keys distinct" over the node loop |
| C04 | all decompositions | frame lemmas field by field |
| C05 | `Zone.add_face`, `unlink_from_zone`, all decompositions | invariant `ZonesOk`, composed over any history |
| C06 | `link_nodes_and_edges_to_zones` | the result list is a `filter` of the grid list |
| C07 | `decompose_mono` | direct |
| C08 | `decompose_random`, random numbers an arbitrary function | induction over faces |
| C09 | `decompose_linear` | arithmetic of `//` and `%`, induction over zones |
| C10 | `bfs_path*` on an arbitrary neighbour structure | invariants of the walk, measure = unmarked faces |
| C11 | `decompose_farhat` | C10 + induction over zones |
| C12 | same | prefix of a BFS path is connected |
| C13 | `split_zone_metric`, `split_zone`, `decompose_hierarchical` | invariant over the zone queue |
| C14 | same | **false**: counterexample theorem (planar grid) + `_partial` under the condition that the last candidate split is proper; `C14_exact_partial` shows that this condition, level by level, is exactly the one needed |
| C15, C16, C19 | `ZonesAdjacencyMatrix` | counting by induction over edges |
| C17 | `Edge.is_*` | case analysis |
| C18, C20, C21 | `store_mpi` as a function from grid to abstract file records | exactness of zone lists (C06) |
| C22, C23 | text level `store` and `load` | printer/parser inversion, then simulation of the rebuilt grid |
| C24 | `load_faces_calc_data` on parsed lines and on text | induction over lines |
| C25 | C21 + C24 | composition |
| C26-C29 | `utils.py` on character lists | lists; C28 has a counterexample with trailing newline |
| C30, C31 | `split.py` decision logic | case analysis + C11 |
| C32-C36 | atomic transformations on `Grid` | explicit post-state, invariant `Wf` re-established |
| C37 | same, incl. `collapse_edge` | permutation of ids; **false** for `collapse_edge`: counterexample + `_partial` |
| C35 | same | **false** for a cross-zone edge: counterexample + `_partial` for inner edges; `C35_exactly`: the parts of the second face stay in its zone iff the two zones are the same |
| C38 | same | counts |
| C39 | vector area of the child triangles | **false**: one child is always reversed (theorem), `_partial` for the others |
| C40, C41 | `Box` over an ordered field | direct |
| C42-C44 | `TrianglesCloud` tree | well-founded recursion, induction over the tree |
| C45 | Cramer branch of `intersection_with_segment` | linear algebra over an ordered field |
| C46 | `Space.fly`, physics step an arbitrary function | induction over fuel-free loop (measure max_steps - points) |
| C47 | `fly_step` | **false**: counterexample theorem when velocities coincide; `_partial` otherwise |
| C48 | result loop of `drops` | **false** when two droplets hit one face; `_partial` for injective hits |
| C49-C52 | `remeshing.py` over the reals | conservation by induction, quadratic formula, list search |
| C53 | `mark_all_fixed_nodes` | induction over edges |
| C54, C55 | `gsu_converter.py` | case analysis and ring identities |
| C56, C57 | link loop of `lazurit_to_crystal.py` | arithmetic; C57 **false** for blocks wider than one cell both ways, `_partial` otherwise |
| C58 | `crys.py` exchange with a global view of all processes | C18 |
| C59 | gather slice | **false** for unequal zones; `_partial` for equal sizes |
| C60 | `move_from_mean_point` over a field | sums; **false** for merged nodes |
| C61 | constructor of `TrianglesCloud` with a store of lists | in-place sorting is visible to the caller |
| C62 | nearest air point as an argmin over a list | induction |
| C63 | prismatoid volume over a field | ring identities; depends on the order of corners |
| C64-C66 | steps of the remesher | frame lemmas, algebra |
| C67 | options of the remesher | **false**: two documented options always raise |
| C68-C72 | `ansys_to_crystal.py` on text files | printer/parser inversion, columns as lists |
| C73 | `interpolate.py`, `lazurit_add_beta_from_ansys.py` | argmin over a list |
| C74, C75 | whole converters | composition of the parts |
| C76 | `collapse_edge` | refinement: every attribute of the result in terms of the grid before; consistency from it; iff for the identifiers |
| C77, C78 | transformations, then text files and calculation results | composition with C22 and C24; C78 **false** for refined grids as an own-values claim, stated as an equivalence |
| C79, C80 | air file, trajectory file | printer/parser inversion over parts of the file |
| C81 | `drops` from texts to texts | C48 + C22; **false** for `MImp2` as a new variable when the first face stays dry, `_partial` otherwise |
| C82 | `split.py` with its JSON file | case analysis over keys + C30; **false** for a heating element without zone, `_partial` otherwise |
| C83, C84 | `remesh.py` with its JSON file | case analysis over keys; C64 + C22; names of results **false** in part (`_r_`) |
| C85 | `gsu_converter.Grid.Import` | printer/parser inversion; **false** for the files of `Export`, `_partial` otherwise |
| C86 | cleaning of a `gsu_converter.Zone` | invariant over sequences of operations |
| C87 | angles | Mathlib's Euclidean geometry over the reals |
| C88–C92 | predicates of points and triangles | algebra over the reals; each **false** within the tolerances of the code, `_partial` with explicit bounds otherwise |
| C93 | rebuilding of faces | invariant over the list of jobs that says what is left of every edge and face; **false** for common edges, exact condition in the `_partial` theorem |
| C94 | side of a point | weights of the corners over the reals; **false** beside a side |
| C95 | merging of intersections | loop invariants with a heap of shared lists; **false** in that foreign points get in |
| C96 | program `refine` | composition with C44 and C77; **false** without intersections |
| C97 | program `crys.py` | composition of C58, C59, C82, C83; **false** unless the number of processes divides the number of faces, exact condition proved |
| C98 | arrays and counts of a zone | exact condition proved; **false** for the second zone of most grids |
| C99 | `phys/laws.py` | induction over the polygon; **false** outside the tables |
| C100 | sessions: all operations mixed, through files | induction over the session; double counting of edges and faces |
| C101 | transformations at an existing node | the replacement of C32-C34 with the new node renamed; both directions of the consistency condition |
| C102 | totals of `.csv` files in `merge` | reading of the text of tables, numpy broadcasting, fold over files |
| C103 | base class of smoothing | fold over nodes; digits of equal length sort like numbers |
| C104 | unit test of transformations, for all grids | C32 - C38, C76 and C101 applied to the first suitable object |
| C105 | `swim.hi` and its result in `crys.py` | invariant of the loop; C97 with this library |
| C106 | `cut_edge_with_two_nodes` at any two points | the replacement of C35 with both new nodes renamed; both directions of the consistency condition |
| C107 | pieces and border of the surface under transformations | common sides of triples; handshake argument around a node for `collapse_edge` |
| C108 | decompositions forget earlier decompositions | simulation of two runs under a renaming of zone objects |
| C109 | refinement keeps area and sums over the surface | areas of the new faces as multiples of the old ones, then induction over steps |
| C110 | a file that ends too early is refused | lines of a beginning of a text; a stored zone is read only if nothing but its last digits is missing |
| C111 | a decomposition that fails does no harm | second model whose exceptions carry the grid (`Model/Left.lean`), proved to agree with the first; invariants of all steps |
| C112 | a load that fails keeps the old grid | second model of `load`, line by line with the grid left behind (`Model/Stream.lean`), refinement to the first model, invariant of the reading loop |
| C113 | a results file is applied completely or not at all | second model of `load_faces_calc_data` with the grid left behind (`Model/Broken.lean`), where a loop stops |
| C114 | a store that fails keeps the old file | second model of `store` with the content of the file when it raises (`Model/Broken.lean`), case analysis of all loops |
| C115 | a transformation that fails leaves the grid as it was | second model of `collapse_edge` with the grid left behind (`Model/Shrink.lean`), invariant from the third deletion on; the others never raise |
| C116 | the text of a `.cry` file | a reader of its own in `Spec/Cry.lean`; it inverts the writer on everything `store_mpi` gives |
| C117 | results of some zones are missing | `Spec/Missing.lean` says which files are there; the merge over the groups of files, face by face |
| C118 | the longest border of a decomposition | the table of counts of the adjacency matrix and maxima of lists |
| C119 | binary64 floats, `'{:.18e}'` and `float()` in `Model/Double.lean` | two floats are at least one unit apart, the text is within half a unit; rounding to nearest is unique |
| C120 | `round(x, 10)` as correctly rounded decimal, then nearest float | decimals below 2^52 are farther apart than rounding moves them; above, floats are integers and stay |
| C121 | `'%f'` of the converter | the file of the converter is read as the blocks with numbers rounded to six decimals |
| C122 | addition of binary64 floats in `Model/DoubleAdd.lean` on top of the tables of C102 | sums of floats are multiples of the smallest float, so each addition has relative error at most 2^-53; induction over the files |
| C123 | products and quotients of binary64 floats and `edges_statistics_string` in `Model/DoubleMul.lean` | numbers with 53 bits are floats; a quotient with a small denominator is too far from a tie to be moved over it |
| C124 | `print_info` as a list of steps, each of which prints lines or raises, `Model/PrintInfo.lean` | the root is the nearest double (`C124_root`); error bounds of the chain of roundings of the deviation; words of padded rows |
| C125 | `decompose_hierarchical` | invariant of the splitting: names of zones that are not fixed are paths, none is a prefix of another |
| C126 | the programs of test.py as functions from files to files, `Model/Cases.lean` | composition of the theorems on reading, writing, decompositions, explosion and face data; induction over the list of methods |
| C127 | files as lists of zones (`loadBlocks`) | the description of a loaded grid (C01, C03) determines it up to numbering: correspondences are built from permutations of the zones and faces and from the places of the nodes |
| C128 | `is_adjacent_with`, `Model/Adjacent.lean` | from the incidence structure (C01) and the uniqueness of rounded coordinates (C03) |
| C129 | `normals_smoothing`, `wsum` (`Model/Remesh.lean`) | means with positive weights; invariant over the turns |
| C130 | `heights_smoothing` (`Model/Remesh.lean`) | exact flow over edges by induction over the edges; bounds of the flow |
| C131 | `split_zone`, `split_zone_metric`, `get_center` (`Model/Grid.lean`) | double counting of the edges between the halves; first minimum of the metrics |
| C132 | `fly_step` over the reals (`Model/Drops.lean`) | Newton's law proved with the textbook force; **false**: continuity and stability, counterexample theorems |
| C133 | `decompose_hierarchical`, `split_zone` | sizes and number of zones proved for sign functions without equal values; **false** in general, counterexample theorem |
| C134 | `decompose_hierarchical` with two levels, `is_cross` | proved |
| C135 | `decompose_hierarchical` with different numbers of levels | proved |
| C136 | all decompositions | **false** except for `decompose_mono` and the first zone of `decompose_farhat`: counterexample theorem from C09, C11, C133, C134 |
| C137 | `decompose_hierarchical` with two lists of sign functions | proved; scaling and shifting over ordered fields |

## Layout

* `Verif/Py.lean` – Python lists, dictionaries, strings, exceptions.
* `Verif/Model/*.lean` – the model, one file per source file.
* `Verif/Spec/*.lean` – small specifications used in theorem statements.
* `Verif/Proofs/*.lean` – lemmas.
* `Verif/Props/*.lean` – the property theorems (names start with the property id) and the
  `example`s showing that hypotheses are satisfiable.

## What is modelled

| source | model | left out |
|--------|-------|----------|
| `gsu/node.py`, `edge.py`, `face.py`, `zone.py`, `grid.py` | `Model/Grid`, `Load`, `Text`, `Mpi`, `Transform`, `Explode`, `Arrays`, `PrintInfo` | `cut_two_edges_with_two_nodes` (`pass` in the source), string forms |
| `gsu/zones_adjacency_matrix.py` | `Model/Zam`, `DoubleMul`, `PrintInfo` | nothing |
| `split.py` | `Model/Split`, `SplitMain`, `Json` | printing, argparse, the parser of JSON text (a tree of values is the argument) |
| `merge.py`, `utils.py` | `Model/Calc`, `Csv`, `Utils` | directory listing (an argument) |
| `geom/*.py` | `Model/Vect`, `Geom`, `Predicates` | string forms |
| `drops.py`, `geom/trajectory.py` | `Model/Drops`, `DropsFile` | KD-tree (an argmin), printing |
| `remeshing.py`, `remesh.py` | `Model/Remesh`, `RemeshMain`, `Json` | numpy eigenvectors, argparse, the parser of JSON text; an option of a wrong JSON type is refused at once |
| `convert/*.py` | `Model/Ansys`, `Import`, `Lazurit`, `Interp` | `PrintInfo`, `Node.Copy` |
| `crys.py`, `cpp/src/swim.cpp` | `Model/Crys`, `CrysMain`, `Swim` | worker pool; the SWIG wrapper; in C97 the library is an argument |
| `test.py` 001, 002, 005, 007, 009, 014 | `Model/Cases` | the line printed first; sign functions of centers are a parameter |
| `test.py` 015-020, `tests/test_gsu.py` | `Model/UnitTest` | printing |
| `refine.py` | `Model/Refine` | the import lines, which fail |
| `phys/laws.py` | `Model/Laws` | scipy (polygon; `curve_fit` is an argument) |
| `smoothing.py` | `Model/Smooth` (base class), `Model/Remesh` (`nullSpaceSmoothing`) | the eigenvalues of the null space method: the code before them stops with an `AttributeError` |

Each model file begins with its own list of simplifications.

## How to read `seeded/LOG.jsonl`

One line is one wrong program: a definition of the model was edited in a copy outside this directory and the copy was rebuilt.
`theorems_failed` names the declarations with errors. Often these are helper lemmas; the property theorems that import them cannot
be checked any more and count as failed too. `theorems_tightened` is filled when an edit was not noticed and theorems were added
or strengthened for it.

## Disagreements between code and properties

Theorems whose name ends in `_violation` prove that the code does not have the property, with a concrete witness or for all inputs.
The part that does hold is in a theorem with the suffix `_partial`.

## Findings

Grid and files
* Load without merging: a zone with two points that have equal rounded coordinates gives an inconsistent mesh (`C01`).
* Zone names with `=` are truncated, variables with spaces or commas are split; index 0 in the connectivity wraps to the last node.
* `store` takes the variables from the first face and raises `IndexError` on a grid without faces (`C22_no_faces`). Nodes without
  faces are dropped; with merging the text is stable from the second cycle on (`C23`).
* `load_faces_calc_data`: a blank line raises `IndexError`, negative numbers wrap, the whole `Data` of a face is replaced.
* After transformations the order of `Faces` is not the order of `GloId`, so `load_faces_calc_data` (which indexes `Faces`) is wrong.
* `has_filename_timestamp` accepts a trailing newline (`C28_newline_violation`); zones from 100000 on are not recognised (`C27`).

Decomposition
* `split_zone_metric` does not undo a split that leaves one side empty: `decompose_hierarchical` raises `ValueError` on every planar
  grid with the default sign functions and two levels (`C14_planar_violation`); exactly when it raises is told by `C14_exact_partial`.
* Duplicate zone names or fixed names give another number of zones (`C30_duplicates_violation`).
* One heating element without `zone` in the JSON file makes `split` forget all fixed zones (`C82_incomplete`, `C82_incomplete_violation`).
* The help text of `split` offers strategy `z`, which is rejected. With both an output file and a directory only the file is written.
* `number_of_border_nodes` is not reset by `clear`; statistics of a grid without edges divide by zero.

Transformations
* One child of each cut is reversed (`C39_*_violation`).
* Children of a cut of a cross edge all get the zone of the first face; node lists of zones are stale (`C35_*_violation`).
* `collapse_face` with joined opposite corners makes a double edge (`C36_tetrahedron_violation`).
* `collapse_edge` breaks the numbering unless the removed objects are not near the ends of the lists (`C37_collapse_edge_violation`) and
  raises after a part of the change was done (`C37_collapse_edge_error`). `C76_identifiers` says exactly when the numbering survives.
* `collapse_edge` leaves an edge without faces if both other sides of one of the two faces are on the border
  (`C76_dangling_violation`), and two faces with the same corners on a tetrahedron (`C76_tetrahedron_violation`). It removes the
  second end from the node list of one zone only and adds the first end to none.
* Results of `store_faces_calc_data` are found again by position, not by identifier: after `divide_face` they are loaded on other faces
  (`C78_refined_violation`; `C78_own_iff`).

Geometry and drops
* Segments spanning less than 1e-10 with a triangle never hit it (`C45_small_violation`), so drops fly through small triangles
  (`C46_small_violation`).
* Coplanar near misses are hits for the triangle test and misses for the boxes (`C43_coplanar_violation`, `C44_coplanar_violation`).
* The constructor of a cloud sorts the list of its caller (`C61`).
* Zones of a connected surface need not be connected (`C136_star_violation`: a triangle with three neighbours, divided into two by any of the three decompositions).
* `split_zone` puts all faces with the median value into the second half and does not look at the sizes, so equal values make uneven zones (`C133_uneven_violation`: one and three of four faces with the default functions, though another axis would give two and two).
* The drag coefficient of `fly_step` jumps by more than a factor of four at the Reynolds number 350 (`C132_jump_violation`). With the exponent 0.66 instead of 0.33 the formulas would nearly fit together, so this looks like a misprint. `air_vis` has the value of a dynamic viscosity, but the Reynolds number is computed without the density.
* `fly_step` can make a droplet faster relative to the air if the time step is too long for its size (`C132_overshoot_violation`).
* `fly_step` divides by zero when droplet and air have equal velocities (`C47_equal_velocities_violation`).
* Two droplets on one face: the first is overwritten (`C48_overwritten_violation`).
* If the grid lacks the variable `MImp2` and no droplet lands on the first face, the result of `drops` has no `MImp2` at all, since
  `store` takes the variables from the first face (`C81_lost`, `C81_lost_violation`).
* `point_in_triangle` does not find any point of a triangle with an area below 0.5e-10 (`C88_small_violation`) and takes points beside the
  triangle for points of its interior (`C88_outside_violation`).
* `<` of points has cycles (`C90_asymm_violation`, `C90_trans_violation`), `==` is not transitive (`C90_eq_violation`).
* `==` of triangles is not symmetric for degenerate ones (`C91_degenerate_violation`); `in_one_plane` likewise (`C89_symm_violation`).
* `point_on_vector` accepts points beside the segment, up to about 3e-5 of its length (`C92_off_violation`).
* `Triangle.is_good` always raises `NameError`: `sqrt` is not imported.
* The elements of the trajectory file are degenerate triangles (i+1, i+2, i+2).

Refinement (`refine.py`)
* The program imports the module `gsu.gsu`, which does not exist. The items below are about the code behind the import lines.
* A corner that touches another triangle becomes a corner of the parts of this triangle, so `refine` ties pieces of the surface together in single nodes (`C93_touch_inside`, `C93_touch_side`, `C93_touch_violation`).
* Two faces with points on their common edge: `IndexError` (`C93_shared_edge_violation`). So `refine` fails for a closed surface that
  is pierced on an edge.
* A triangle with two points on different sides, with two points inside or with more than two points is left as it is, so two
  triangles that cross each other are usually not changed (`C96_crossing_violation`).
* `point_on_edge_of_triangle` compares areas with zero without rounding and returns the third side for a point beside the first
  (`C94_near_violation`).
* The lists of points are shared between entries and extended in place, so that entries get foreign points (`C95_foreign_violation`).
* `IndexError` if there are no intersections (`C96_no_contact_violation`).

Remeshing
* With `may_ignore = 0` always the maximal number of steps (`C52_nothing_ignored`); `IndexError` when everything may be ignored.
* Without redistribution more ice is put on than there is (`C50_without_redistribution`).
* `normals_smoothing` does not normalise the means: where the surface is curved the nodes move by less than the height (`C129_shorter`). With
  `nsmooth_k = 0` it divides by zero on flat surfaces (`C129_zero_k`).
* `heights_smoothing` with `hsmooth_beta` above 1/3 can leave a face with negative ice; it then raises (`C130_beta_violation`).
* `pseudo_2d_oz` and `nss_steps > 0` always raise `AttributeError` (`C67_*`).
* `remesh` writes the results of `w_r_1.dat` and `w_1.dat` into the same file (`C84_collision_violation`).
* Linear formula for volumes or coefficients up to 1e-10 (`C51_small_violation`); the volume depends on the order of corners
  (`C63_order_violation`).

Converters
* Merging takes columns by position (`C70_order_violation`) and is confused by names that contain a wanted name (`C70_twice_violation`).
* The heat transfer coefficient divides by zero for air at rest and at the adiabatic temperature (`C71_division_by_zero`).
* `gsu_converter.Grid.Import` refuses every file of `Export` whose first zone has a face (`C85_export_violation`) and leaves out zones
  with `TITLE` or `VARIABLES` in the name (`C85_keyword_violation`).
* Quadrangles whose opposite corners coincide give a triangle with the wrong area (`C54_opposite_corners`).
* LAZURIT cell data is assigned to wrong cells when both dimensions are three or more (`C57_violation`).

Points at existing nodes
* `divide_face`, `cut_single_edge`, `cut_edge` take an existing node silently if the new point rounds to its place. If this node is a
  corner of a replaced face or joined to one, the result has an edge from a node to itself or two edges between the same nodes
  (`C101_divide_face`, `C101_corner_violation`). The node is not put into the node list of the zone (grid.py:1283-1288).
* `cut_edge_with_two_nodes` does so for each of its points. Two points that round to the same place, as on a short edge in
  `refine.py:184`, are not refused: the result has a face with two corners and an edge from a node to itself
  (`C106_same_place_violation`).
* `collapse_edge` on an inner edge between two border nodes can split the surface into two pieces that touch in a node only
  (`C107_pinch_violation`). It does not if one end is not on the border, and it never joins pieces.
* A decomposition told to keep a zone with a name it gives itself (`farhat 0`) is not repeatable: each repetition adds a zone
  (`C108_repeat_kept_violation`). If the kept zones are the same, repeating changes nothing (`C108_repeat`).
* `cut_edge_with_two_nodes` takes its points in the order of the ends of the edge. In the other order the new faces overlap and the area
  grows (`C109_order_violation`). `refine.py` 165-184 does not order the points, so whether a refined surface overlaps itself depends on
  the order in which the file lists the corners of the face (`C109_refine_violation`: area 14 instead of 10).
* A grid file that ends too early is not always refused. Cut after any zone (or within the head) it loads as a smaller grid
  (`C110_boundary_violation`); cut inside of the last node number of a zone it loads with a wrong last face (`C110_digit_violation`: `12`
  read as `1`). These are the only two ways (`C110_cut_partial`). Files of results are accepted cut after any line, the other faces
  keeping their old data (`C110_results_violation`), and cut inside of a line (`C110_results_line_violation`).
* `decompose_random(0)`, `decompose_linear(-1)`, `decompose_farhat(0)` and `decompose_hierarchical(levels=0)` raise after they have
  removed the zones and unlinked the faces. `unlink_faces_from_zones` reads `face.Zone.IsFixed` and raises for a face without zone, so no
  decomposition works on that grid any more (`C111_stuck_violation`, `C111_stuck_forever`), and `store` writes a file without zones
  (`C111_store_violation`). `decompose_linear(0)` raises before any harm but the new name (`C111_linear_zero`).
* `load` calls `clear` before `open`, so a misspelt file name empties the grid (`C112_missing_file_violation`). A load that raises later
  leaves what it has read: a grid without edges whose last zone may have faces without corners (`C112_left_partial`). `store` writes such
  a grid without complaint to a file that cannot be loaded (`C112_half_violation`).
* `load_faces_calc_data` changes the faces while it reads. A bad line leaves the lines before it applied, so that the grid has a mixture
  of old and new results (`C113_mixed_violation`).
* `store` opens the file for writing and then counts nodes of zones. If an identifier is not less than the number of nodes (after
  `collapse_edge`, see C76) it raises `IndexError`, and the file with the previous grid is lost (`C114_destroyed_violation`).
* `collapse_edge` deletes two faces and the edge before it looks at the rest. Whenever it raises, they are gone
  (`C115_torn_violation`), and it raises whenever the second end of the edge has no other faces (`C115_pendant_violation`).
* `collapse_face` does not look whether the opposite corners are joined. If they are, the result always has two edges between the
  same nodes (`C36_joined_violation`).
* `merge` does not notice missing results. It writes a file for every time for which there is any result; if the zone of the first
  face has none, the computed values of all other zones are lost for variables that are not in the grid file
  (`C117_lost_violation`), otherwise the faces of the missing zones silently have old values or zero (`C117_stale_violation`).
* The tolerance for merging nodes is not a distance: two floats next to each other on both sides of `5e-11` have different rounded
  coordinates and stay different nodes (`C120_close_violation`); points up to `1e-10` apart may be merged.
* `gsu_converter.Grid.Export` writes all numbers with `'%f'`: six decimals whatever the unit of length is. Data below `5e-7` become
  zero and nodes closer than that become one node when the file is loaded (`C121_lost_violation`).
* The totals of `merge` depend on the order of `os.listdir` in their last digits from three files on (`C122_order_violation`).
* `print_info` of a grid without zones raises `ZeroDivisionError` or `ValueError` in the middle of the output (`C124_no_zones`).
* The quality factor of a zone without faces is `nan`. If it is the first zone, `print_info` prints `nan` for the least and the greatest factor of the grid; elsewhere empty zones do not count (`C124_any_zones`, `C124_order_violation`). `decompose_random`, and `decompose_linear` with more zones than faces, make such zones.
* A fixed zone may have a name like those `decompose_hierarchical` gives; then two zones of the grid have the same name (`C125_same_name_violation`).
* `case_001_load_store` writes two files that are meant to be equal. They can differ if a zone of the file has a point it does not use (`C126_different_violation`).
* `case_007_store_load_faces_calc_data` loses all variables of the grid except `T`, `Hw`, `Hi` (`C126_calc_data`); `case_014` raises `KeyError` unless all five variables of stall are there (`C126_stall`).

Totals of `.csv` files (merge.py:70-89)
* A table with one row is added to all rows of the others, or is an error, depending on the order of `os.listdir` (`C102_rows_violation`).
* All `.csv` files are added, whatever their names and times (`C102_name_violation`).
* The totals are put into `dst_dir/..`; if this is the source directory, the next run adds them too and doubles all numbers
  (`C102_again_violation`).

Smoothing
* `fix_boundary_nodes` keeps nothing unless `mark_all_fixed_nodes` was called before: `Smoothing` does not call it
  (`C103_fixed_violation`). Moved nodes keep the rounded coordinates of their old place (`C103_key_violation`).

Unit tests
* `tests/test_gsu.py` asserts for one grid what fails on others: `collapse_edge` leaves gaps in the identifiers if the collapsed faces
  are among the last ones (`C104_collapse_edge_violation`), `divide_face` at the centre of a face adds no node if a node is there
  (`C104_divide_face_violation`), and the search for an edge with one face raises `IndexError` on closed surfaces.
* `tests/test_geom_vect.py` asserts `Vect(1, 1, 1) * Vect(2, 0, 0) == 2`, which cannot hold: `__mul__` gives a vector (of vectors).
* `Props/Conformance.lean` runs the other unit tests (`test_triangle.py`, `test_utils.py`, `test_geom_vect.py`) on the model; all
  expected results are reproduced. These are tests of the model, not proofs.

C++ library
* `swim.hi` takes three lengths and uses the first one only: shorter second or third arrays are overrun (`C105_bounds`). `crys.py`
  always passes equally long arrays. What it adds to temperatures and water heights is thrown away (`C105_crys_partial`).

Nodes without faces
* A point of a file which is not a corner of a face becomes a node of the grid, but of no zone, and is lost by `store`
  (`C100_loose_violation`).

Arrays of a zone and laws
* `connectivity_list_faces_nodes` has global numbers, which are rows of `coords_np_array` only for zones with the first nodes of the grid
  (`C98_fits_partial`). `variables_np_array` always has zeros for `MImp2`, `Vd2`, `RecoveryFactor`.
* `np.float` does not exist in numpy 1.24 and later: `AttributeError` (`C98_no_float`).
* Laws outside their tables: negative viscosity (`C99_viscosity_violation`). Heat of vaporization in kJ/kg, of sublimation in J/kg
  (`C99_units_violation`).

Parallel driver
* Gathered heights are put on wrong faces unless the number of processes divides the number of faces (`C97_exactly`, `C97_violation`).
* The exchange of `T`, `Hi`, `Hw` changes nothing: every process has read all faces from the file, and the heights computed since then
  are in an array, not on the faces (`C97_exchange_idle`).
* Sends are not waited for and the send buffer is reused (`C58_race_violation`); a zone without neighbours raises `ValueError`
  (`C58_isolated`); `get_real_face` works only after `f.Zone` was overwritten by a number (`C58_without_marking`).
* The gathered array is cut at `i * c_i` instead of the sum of the sizes before (`C59_exactly`, `C59_violation`).
