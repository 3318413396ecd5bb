# Design

Formal model in Lean 4 of `bostoncleek/ergodic_exploration` and proofs of the properties in
`properties.jsonl`.  Status per property is in `MANIFEST.json`; mutation tests of the
theorems are in `seeded/LOG.jsonl`.

## Layout

| Directory | Content |
|---|---|
| `lean/Verif/Base` | outcomes of C++ calls (`Res`), the number interface (`Flt`), small vectors |
| `lean/Verif/Model` | the code, function by function; each definition cites file and lines |
| `lean/Verif/Spec` | specification vocabulary, independent of the model's helpers |
| `lean/Verif/Lemmas` | helper lemmas |
| `lean/Verif/Props` | the property theorems (`C01_…`, `C02_…`, …), each with a satisfiability example |
| `lean/Verif/Conformance.lean` | the repository's own unit-test values replayed on the model (tests, not proofs) |

## Trusted base

* Lean 4.33.0's kernel and Mathlib's definitions.  No axioms are added; theorems depend on
  at most `propext`, `Classical.choice`, `Quot.sound` (`lean/Verif/Axioms.lean` fails
  the build otherwise).  No `sorry`, `admit`, `native_decide`, `bv_decide`.
* The reading of the C++ source: the model is a hand translation.  It was written from the
  text of `/repo` and is not extracted from it.  The code was never compiled or run.
* The number interface.  The model is written over an arbitrary type `F` with `[Flt F]`:
  * theorems for every `[Flt F]` assume nothing about arithmetic, so they hold for IEEE-754
    doubles including rounding, infinities and NaN;
  * theorems at `ℝ` are about exact arithmetic (rounding is *not* covered, `PI` is π);
  * theorems at `Dbl` are about exact arithmetic extended with `±∞` and `NaN` (no rounding,
    no overflow, no signed zero); used where special values matter;
  * theorems at `RDbl M` are about rounded arithmetic (`Base/Rounded.lean`).  They hold for every
    `M : Machine`: a monotone, idempotent, odd rounding with relative error `2^-53` (absolute
    error `2^-1075` near zero) that fixes the integers up to `2^53` and doublings, with library
    functions of which only `|sin|, |cos| ≤ 1` and `exp ≥ 0` is assumed (the accuracy of `log`,
    `exp`, `sin` and `cos` is a hypothesis, `Accurate` or `AccurateTrig`, where it is needed).  `ieee`
    (`Lemmas/Ieee.lean`) is round-to-nearest-even binary64 constructed from scratch and shown
    to be such a machine, so the laws are satisfiable; refutations are for `ieee`.  Not
    covered there: overflow of finite results to infinity, and signed zero;
  * theorems at `ODbl M` (`Base/Overflow.lean`) are about the same rounded arithmetic with overflow:
    a finite result whose rounded magnitude reaches `2^1024` is an infinity.  Theorems for every
    `[Special F]` (`Spec/Special.lean`) only use how infinities and NaN propagate and hold for
    `Dbl`, `RDbl M` and `ODbl M`.  Signed zero is covered nowhere.
* `unsigned int` is `UInt32` (wraps), `int8_t` is `Int8`, `int` is unbounded `Int` with
  separate range theorems.  Mixed `int`/`unsigned` expressions use explicit conversions.
* Undefined behaviour (out-of-range `double`→integer casts, division of integers by zero,
  `std::clamp` with `hi < lo`, erasing past the end) is the distinct outcome `Res.ub`;
  exceptions are `Res.throw`; a loop that could run out of model fuel gives `Res.timeout`.
* External contracts, stated where used: Armadillo's bounds checks throw
  `std::logic_error`; `inv`/`eig_sym` only on diagonal matrices; `tf2::Quaternion::setRPY`
  for a pure yaw; `std::unordered_map` emplace/at; `randi` draws lie in the requested range;
  `XmlRpcValue` sizes, indexing with growth, and conversion to `double` (`Model/Launch.lean`).
* Some theorems for arbitrary arithmetic need that `<` is a strict order on the costs compared;
  this is the class `StrictLt` (true of doubles, NaN included).
* The interleaving model (C71) is sequentially consistent, with indivisible member assignments
  and calls.  Data-race undefined behaviour and weak memory are not modelled.
* The model of callbacks during an iteration (C103, `Model/Concurrent.lean`) has indivisible
  callbacks, and the controller, the validation and the search each read one map.
* The model of torn odometry (C114, `Model/Torn.lean`) has indivisible assignments and reads of one
  component, seen by everybody in program order.
* The metered model (C131, `Model/Metered.lean`) charges each call of a kind named in `Prices` where the
  source makes it. Its outcomes are proved equal to the model's; where the charges stand is to be read.

### Modelled

`grid.hpp/.cpp`, `collision.hpp/.cpp`, `numerics.hpp`, `buffer.hpp/.cpp`,
`mapping.hpp/.cpp`, `basis.hpp/.cpp`, `target.hpp/.cpp`, `models/cart.hpp`,
`models/omni.hpp`, `integrator.hpp` (the least-squares solver inside `polyfit` is a parameter),
`dynamic_window.hpp/.cpp`, `ergodic_control.hpp`, `exploration.hpp`,
`exploration_cart_node.cpp`, `exploration_omni_node.cpp` (from parameters on).

### Not modelled

ROS transport (but see `Model/Queue.lean` and C121 for the subscriber queues), `ros::Rate`, logging and console output, `GridMap::print`, the parameter
server itself (the conversions of its values are in `Model/Launch.lean`), `float32` rounding
of message fields (but see C93 for the resolution and C120 for the angles of a scan), constant marker fields, memory exhaustion, Armadillo's internal summation order (but see C123, which covers every order for the coefficients and the target) and the association it chooses for a product of three matrices (`-Rinv_ * fdu.t() * rho` is read from left to right, and so is `(wheel_radius / 4.0) * Hp * u`; C127 covers every association of the former, with and without rounding).
The C++ `int` arithmetic is only claimed where a range theorem shows it cannot overflow.

## Working rule for refuted properties

`properties.jsonl` states what a user would rely on.  Where the code does not provide it,
the negation is proved with a concrete witness (`Cnn_refuted…`), the part that does hold is
proved as `Cnn_…_partial`, and the property is listed as `partial` in `MANIFEST.json`.

## Plan per property

Abbreviations: **any** = proved for every `[Flt F]`; **ℝ** = exact arithmetic; **Dbl** =
with special values; **R** = a refutation witness is expected.

| Id | Model | Specification and proof |
|---|---|---|
| C01 | `grid2RowMajor`, `rowMajor2Grid` | any; `UInt32` facts via `Nat` division with the no-wrap hypothesis `xsize*ysize < 2^32`; round trips both ways and injectivity |
| C02 | `gridBounds(i,j)` | any; exact on non-empty axes. R: on an empty axis `size-1` wraps and everything is in bounds |
| C03 | `gridBounds(idx)` | any; exact when `0 < xsize*ysize < 2^32`. R: empty grid; R: product wraps |
| C04 | `ofLimits`, `ofMsg` | any; success implies the data length is the *wrapped* product; exact without wrap. R: 65536×65536 with no data is accepted |
| C05 | `update` | any; induction over the message list |
| C06 | constructors + `update` | any; invariant over histories under the hypothesis that messages are well formed. R: `update` accepts a mismatched message |
| C07 | `grid2World`, `world2Grid`, `world2RowMajor` | ℝ; floor of a half-integer |
| C08 | `world2Grid` | ℝ; floor characterisation plus the clamp of the last row/column |
| C09 | `world2Grid` | ℝ. R: points up to one cell past the upper edge are folded in; points below the lower edge are `ub`. Partial: from one full cell outside upward nothing is folded |
| C10 | `getCell(idx)` | any for the bounds check and exactness; ℝ for the value range |
| C11 | `getCell(i,j)` | any. R: a column index equal to `xsize` aliases the next row |
| C12 | `axis_length`, `axis_upper` | ℝ; rounding of an integer |
| C13, C14 | `normalize_angle_*` | ℝ; floor bounds, periodicity, idempotence |
| C15 | `getYaw` | ℝ; `Complex.arg` of the double-angle vector; scale invariance |
| C16 | `entropy` | ℝ; against `Real.binEntropy`; unknown = 0.7 > ln 2; integer-percent separation |
| C17 | `transform2d*`, `transform2dInv` | ℝ; matrix algebra. R: `transform2dInv` passes its arguments in the wrong order |
| C18 | `integrate_twist` | ℝ; one-parameter-group law and derivative (`HasDerivAt`). The step `dt = 0` with rotation is `0/0` (Dbl theorem) |
| C19 | `integrate_twist` | ℝ; heading error bound, straight line |
| C20 | `validate_control` | any; early-exit loop against "no pose of the orbit collides" |
| C21 | `constTwistPath` | ℝ; the two loops differ in when the heading is normalised; positions agree by 2π-periodicity |
| C22 | `ReplayBuffer::append` | any; induction over the append history |
| C23 | `sampleMemory` | any; oracle argument for the draws with the in-range hypothesis |
| C24 | `Collision` constructor | any/ℝ. R: thresholds up to 100 are accepted although documented as [0,1] |
| C25 | `collisionCheck` | any; invariant over the sweep: a hit is a visited in-map cell that meets the threshold |
| C26 | `collisionCheck` | R: interior disc is never searched and concentric sweeps leave gaps. Partial: a visited cell in the collision radius is always reported |
| C27 | circle sweep | pure integer loop; invariant `err = (x+1)²+(y+1)²−r²`, `\|x²+y²−r²\| < r`… |
| C28 | three queries | any; repeated search is idempotent; minimum over visited cells |
| C29 | `collisionCheck` | ℝ; monotone simulation of the two sweeps |
| C30 | queries | any; bounds; casts in range as hypotheses |
| C31 | `checkCell` | ℝ; negative values are below every threshold ≥ 0 |
| C32 | `rayTrace` | cells of the model's loops as a list, refinement to a fold of updates; induction |
| C33 | `rayTrace` | same list; Bresenham error invariant |
| C34 | `updateCell` | ℝ; log-odds algebra; exact rational formula |
| C35 | `updateCell` | ℝ/Dbl; monotone. R: 0 and 100 are absorbing |
| C36 | `updateMap` | any; frame property. Robot left of/below the map: `ub` |
| C37 | `updateMap` | Dbl; invariant [0,100] |
| C38 | `updateMap` | R: unknown cell −1 gives NaN and an undefined cast (Dbl). Partial for 0..100 |
| C39 | `Basis::Basis` | any; list indexing |
| C40–C42 | basis functions and coefficients | ℝ; `HasDerivAt`, sums |
| C43 | Gaussian | ℝ |
| C44 | `Target::fill` | ℝ. R: empty list of Gaussians gives NaN (Dbl) |
| C45 | list operations | any for the list; ℝ for permutation invariance |
| C46 | `markers` | R: extents use ascending eigenvalues of the covariance, so they swap and are variances |
| C47 | Jacobians | ℝ; `HasDerivAt` per entry |
| C48, C49 | models | ℝ; algebra |
| C50 | RK4 step | ℝ; Simpson's rule error bound |
| C51, C52 | `RungeKutta::solve` | any; induction; ℝ for heading range and linearity |
| C53 | RK45 step | R: weight 2197/4101. Partial: the fifth-order value is consistent |
| C54 | RK45 loop | any/ℝ; termination; R: one write past the allocation |
| C55 | DWA window | ℝ. R: inverted window when the current twist is outside the limits |
| C56, C57 | DWA search | ℝ; argmin invariant over the nested loops |
| C58 | DWA reference index | R: truncated step count. Partial under `dwa_horizon ≤ n·dt` |
| C59 | `updateControl` | ℝ; R for NaN at Dbl (clamp keeps NaN) |
| C60, C65 | `control` | any; structural |
| C61 | `configTarget` | R: cached by map size only. Partial: correct when the size changed |
| C62 | `phiGrid` | ℝ |
| C63 | `gradBarrier` | ℝ; `HasDerivAt` |
| C64 | `newControl` | ℝ; convexity per coordinate |
| C66 | constructor | any. R: zero steps accepted |
| C67, C68, C69, C73 | event semantics | any; invariants over histories. C69 R: `dwa_steps = 0` |
| C70 | event semantics | ℝ. R: DWA window can violate limits; cart lateral velocity |
| C71 | interleaving model | R: concrete torn read. Partial: atomic callbacks are consistent |
| C72 | node | any |
| C73 | event semantics | any; counting invariant |
| C74 | `Basis` weights | ℝ; the code uses `(1+\|k\|)^1.5`, the literature `(1+\|k\|²)^1.5` |
| C75 | `gradErgodicMetric` | ℝ; `HasFDerivAt` of the metric |
| C76 | simulated motion | ℝ; speed bound by induction |
| C77 | node | ℝ; invariants over histories. R: leaving the lower edge is `ub` |
| C78 | start-up | ℝ/any; exact characterisation |
| C79, C80 | `grid2World`, `world2Grid` | RDbl; error bounds. R: far from the origin |
| C81 | step and cell counts | RDbl; the quotient is within one part in `2^51`. R: `0.3/0.1`, `0.7/0.1` |
| C82 | `normalize_angle_*` | RDbl; Sterbenz-like exactness. R: the excluded end is reached |
| C83 | `updateMap` | RDbl; same invariant as C37 |
| C84 | `updateCell` | RDbl with log/exp right to 40 bits; error budget through the posterior. R: a library giving 89 for 90 |
| C85 | velocity window | RDbl; error per added increment. R: shipped limits exceeded by `2^-52` |
| C86 | `DynamicWindow::objective` | RDbl; accumulated time, quotient bracket. R: 0.6/0.1 loses a column |
| C87 | collision queries | RDbl; radii and robot cell brackets, then C25–C31 for every number type. R: 0.7 + 0.2 is eight cells |
| C88 | `Launch`, `Basis.create`, `readTargets` | any; columns written one by one by induction, `int` → `unsigned` by cases on the sign. R: a negative sample count starts |
| C89 | `Node`, `Driven` (robot motion) | ℝ; C68 per period, induction over the history. R: an iteration whose lookup fails |
| C90 | `getYaw` | ℝ; quaternion algebra. R: forward axis within 0.26° of the vertical |
| C91 | planned trajectory = motion of the planned controls | ℝ; induction over the rollout, C50 error per step, errors add because displacement depends on the heading only |
| C92 | co-state pass: exactness, growth, size of the planned controls | ℝ; the Jacobians are nilpotent, so the Taylor polynomial of C52 is the solution (existence and uniqueness); induction backwards over the columns; bounds on the basis gradients and the barrier |
| C93 | radii in cells with a `float32` resolution | RDbl; a decimal number with seven places is at least `2^-48` away from its nearest binary32 number, more than all roundings of doubles. R: 0.1 as `float32` |
| C94 | fitted trajectory of the embedded integrator | ℝ, least-squares solver as a parameter; a fit of samples on a quartic is that quartic (Lagrange). R: a body that moves for one step and then rests |
| C95 | planning update as a descent step | ℝ, continuous time; differentiation under the integral, variation of the motion, integration of the pairing of co-state and variation over the horizon, C64 for the clamped update. Witness for the overshoot: a robot at rest on the border with cheap controls |
| C96 | finite commands with rounding | `RDbl M` for every `Machine`; invariant over histories of calls. Assumptions: no overflow, `PowPositive`, target seen (`TargetSeen`), sides of at least a millimetre |
| C97 | twists that are not finite | `RDbl M` for every `Machine`; the conversion of a non-finite number to an index is `ub` |
| C98 | simulated motion with rounding | `RDbl M`, library sine and cosine accurate (`AccurateTrig`, met by `ieee`) |
| C99 | the node keeps running, with rounding | `RDbl M`, library functions as in C96 and C98 |
| C100 | coefficients that are not initialised | `RDbl M` |
| C101 | a map without extent | `RDbl M` |
| C102 | readings that are not measurements | `F`, `Dbl` |
| C103 | callbacks between the calls of an iteration | `F`, `ℝ` |
| C104 | embedded integrator, known solutions | `ℝ` |
| C105 | the shipped configuration files, from the parameter server to the published twists | `RDbl M` for every `M`, binary64, `ℝ` |
| C106 | step-size control of `RungeKutta45`: what it aims at and when it reaches the horizon | `ℝ`, `Dbl`, any arithmetic |
| C107 | positions outside the map, images in its edges, orthogonality of the basis | `ℝ` |
| C108 | overflow to infinity: published twists are finite; no overflow in the simulation with ordinary numbers | every `[Special F]`; `ODbl M` |
| C109 | storage of the embedded integrator: at most one column too few, for every horizon, and exactly when | every `[Flt F]`; ℝ |
| C110 | equivariance under displacement of the map frame, for whole histories of both executables | ℝ |
| C111 | noninterference: of the cells only occupied-or-not reaches the output, for whole histories of both executables | every `[Flt F]` |
| C112 | locality: what is published depends on the map only near the robot, for whole histories of both executables | queries every `[Flt F]`; executables ℝ |
| C113 | invariance of whole sessions of both executables under permutation and repetition of the targets; which targets are the same distribution | ℝ |
| C114 | odometry stored component by component while the window is computed | `F`; limits `ℝ` |
| C115 | closed-loop safety with callbacks anywhere in an iteration | `ℝ`; re-sent messages `F` |
| C116 | closed-loop safety with rounding, transform error and actuation error | `RDbl M` |
| C117 | an obstacle outside the padded radius cannot get inside the boundary radius by king's moves that pass every check (padding ≥ 3 cells, or ≥ 2 with boundary < 22 cells) | any `F` (cells), `ℝ` and `RDbl` (metres, closed loop) |
| C118 | a cell hit by a beam is an obstacle after the scan, and the robot stays away from it, if at most one beam crosses it; five crossings erase any obstacle | `Dbl` |
| C119 | a robot that is too close to an obstacle never moves again; otherwise a free sample is taken | every `F`; `ℝ`; `RDbl` |
| C120 | single-precision beam angles drift by at most `k 2^-23` and leave the map alone away from cell borders | `Dbl`. R: an increment of `2^-10 + 2^-24` |
| C121 | what the published messages depend on: latest messages, window samples, batch | `F` |
| C122 | a robot at rest in a free place finds a twist | `ℝ`, `RDbl` |
| C123 | coefficients with rounding, in any order of summation | `RDbl` |
| C124 | closed-loop safety on maps that change | `ℝ`, `RDbl` |
| C125 | obstacles that stay are never run into, however the maps change | `ℝ`, `RDbl` |
| C126 | start-up returns or throws, up to four conversions | any `F`, `ℝ` |
| C127 | the update is close to the minimiser of the Hamiltonian with rounding, for every association | `ℝ`, `RDbl` |
| C128 | C36 and C118 with rounding: every cell takes in the beams by Bayes' rule up to one per cent each; shown obstacles are obstacles for the shipped detector and are avoided | `RDbl` |
| C129 | Every run of a node returns, throws, or comes to one of three kinds of conversion that does not fit; the circle sweep ends on every map; and an iteration with what it needs returns without an exception (for the cart also without a NaN in the lateral plan) | any `Flt`; the last also at ℝ and `ODbl M` |
| C130 | Every sequence of scans returns, throws, or comes to one of three conversions that does not fit; on well-formed maps it returns otherwise | any `Flt`; `Dbl` and `RDbl M` for the values |
| C131 | Queries, window searches, plans, iterations, whole histories and scans cost at most a price fixed by parameters and map size, on every outcome | any `Flt` |
| C132 | Planning, collision queries, validation, window searches and whole histories commute with reflections; edges, equal distances, equal costs and half-way rays break the symmetry | `ℝ` |
| C133 | Planning, collision queries, validation, rays, mapping, window searches and whole histories commute with the exchange of the two axes | `ℝ` |
| C134 | Collision queries, validation, mapping and coefficients do not depend on the unit of length; the barrier and the window's cost do | `ℝ` |
| C135 | Planning, validation, takeovers and whole runs do not depend on the unit of time; turns slower than the tolerance do | `ℝ` |
| C136 | More cautious detectors and longer horizons accept less; a larger boundary radius alone does not | `ℝ`, every arithmetic for the horizon |
| C137 | Detector, cells, window, validation and odometry do not influence an undisturbed run; caution and obstacles that do not disturb can be removed | every arithmetic; `ℝ` for removal |
| C138 | A refined sampling grid of the dynamic window never does worse; a larger number of samples may | `ℝ` |

## Findings

Properties that do not hold of the code, with the theorem that shows it.

| Where | What happens | Theorems |
|---|---|---|
| `gridBounds` | on an empty map `size - 1` wraps and every cell is in bounds | `C02_refuted…`, `C03_refuted_empty` |
| `GridMap(…)` | the size product wraps: 65536 × 65536 with no data is accepted | `C04_refuted…`, `C03_refuted…` |
| `GridMap::update` | no size check | `C06_refuted…` |
| `world2Grid` | up to a cell beyond the upper edge is folded into the map; below the lower edge a negative number is converted to unsigned | `C09_refuted…`, `C36_…`, `C77_refuted` |
| `getCell(i,j)` | a column past the end reads the next row | `C11_refuted…` |
| `transform2dInv` | calls `transform2d` with its arguments in the wrong order | `C17_refuted…` |
| `Collision` | accepts thresholds up to 100 where [0,1] is documented | `C24_refuted…` |
| `collisionCheck` | concentric sweeps leave gaps; the disc inside is not searched | `C26_refuted…` |
| `updateCell` | 0 and 100 are absorbing | `C35_refuted…` |
| `updateCell` | an unknown cell (−1) gives a NaN cast to `int8_t` | `C38_refuted…` |
| `Target::fill` | an empty target gives NaN | `C44_refuted…` |
| `Target::markers` | extents are swapped variances | `C46_refuted…` |
| `RungeKutta45` | weight `2197/4101` instead of `2197/4104` | `C53_refuted…` |
| `RungeKutta45::solve` | can write outside its storage, overrun the horizon | `C54_refuted…` |
| `DynamicWindow` | odometry outside the limits gives twists outside the limits | `C55_refuted…`, `C70_refuted…` |
| `DynamicWindow` | a NaN reference rejects every twist | `C57_refuted…` |
| `DynamicWindow` | a truncated step count reads past the reference | `C58_refuted…` |
| `ErgodicControl` | NaN controls before a target is set | `C59_refuted…` |
| `ErgodicControl` | coefficients are cached by map size only | `C61_refuted…` |
| `ErgodicControl` | zero steps slip through the constructor check | `C66_refuted…` |
| `Exploration` | zero window steps: the window twist is never followed | `C69_refuted…` |
| `Exploration` | map updates race with collision checks | `C71_refuted…` |
| `grid2World` | far from the origin the centre of a cell is in another cell | `C79_refuted` |
| horizons, radii | `0.3/0.1` gives 2 steps, `0.7/0.1` gives 6 cells; the shipped radii lose a cell on a 0.1 m map | `C81_refuted`, `C81_radius_refuted`, `C81_shipped_radii` |
| `normalize_angle_*` | the excluded end of the interval is returned for tiny negative angles | `C82_refuted`, `C82_refuted_2PI` |
| `updateCell` | a whole-percent posterior may be stored one too low, depending on the library's log and exp | `C84_refuted` |
| `DynamicWindow::control` | the last velocity sample may exceed the limit by a rounding error | `C85_refuted` |
| `DynamicWindow::objective` | horizons 0.6 with steps 0.1 (controller) and 0.02 (window): column 5 of five columns is read, armadillo throws | `C86_refuted`, `C86_lost_column` |
| collision radius | 0.7 + 0.2 on cells of 0.1 is eight cells; an obstacle at 0.9 m straight ahead is not reported | `C87_refuted` |
| negative counts | `vx_samples: -1` on the parameter server becomes 4294967295 samples and the node starts | `C88_refuted` |
| basis size | from 46341 functions per axis the column counter overflows (undefined behaviour); from 65536 the product wraps | `C88_basis` |
| target parameters | a whole number among `means` or `sigmas` stops the node at start-up; so do missing `means`; missing `sigmas` are read as zero and stop it too | `C88_no_means`, `C88_no_sigmas` |
| `Exploration::control` | an iteration whose transform lookup fails plans and validates from the previous pose; the robot drives into an obstacle | `C89_refuted_lost` |
| `getYaw` | forward axis within 0.26° of the vertical: the heading is reversed or mirrored | `C90_refuted`, `C90_reversed`, `C90_mirrored` |
| resolution of a map message | `float32(0.1) > 0.1`: every radius that is a whole number of cells is one cell short, whatever the rounding of `double`s; likewise 0.05, not 0.02 | `C93_refuted`, `C93_up`, `C93_unreported` |
| `RungeKutta45::solve` | the returned trajectory is a least-squares quartic that need not start at the initial state; with fewer than five accepted steps `polyfit` throws | `C94_refuted`, `C94_short` |
| `ErgodicControl::updateControl` | the update is a descent direction, but it is taken in full without a line search; with cheap controls one call can raise the objective from 1/16 to above 15 | `C95_decrease`, `C95_full_step` |
| `Target::fill` / `ErgodicControl::control` | a target all of whose Gaussians are far from the map (about 39 standard deviations) underflows to zero mass in binary64, and the robot is commanded NaN, which `std::clamp` lets through | `C96_far_target`, `C96_out_of_sight` |
| `Exploration::control` / `validate_control` | a NaN twist (see `C96_out_of_sight`) is not recognised: the omnidirectional node converts NaN to a cell index (undefined), the cart node dies of an uncaught `std::invalid_argument` | `C97_omni`, `C97_cart`, `C97_far_target` |
| `DynamicWindow::window` | NaN or +infinite odometry passes through `std::max` and every search of the window is undefined behaviour | `C97_odometry` |
| `ErgodicControl::ErgodicControl` | `phik_` is not initialised (Armadillo before 10.5) and is read when the first map has no extent; nothing depends on it, because every gradient is NaN then | `C100_uninitialised` |
| `ErgodicControl::configTarget` | a map of 0 x 0 cells (or of one side zero) divides by zero: the node commands NaN and stops (undefined behaviour or an uncaught exception) | `C101_empty_map` |
| `OccupancyMapper::updateMap` | a NaN reading passes `range > range_max || range < range_min`; its end point is converted to `unsigned int`, undefined behaviour | `C102_refuted`, `C102_nan` |
| `Exploration::control` | with `AsyncSpinner` a map that arrives between planning and validation: the twist is planned on one map and accepted on another, which no sequential execution does | `C103_refuted` |
| `RungeKutta45::solve` | a constant motion is returned too fast by the factor 1 + 2197/5610168 for every tolerance and every step size | `C104_constant_partial`, `C104_refuted` |
| `explore_omni.yaml`, `explore_cart.yaml` | a first map that begins 72 m right of or above the targets ends the node in its first iteration (undefined behaviour, or an exception for the cart) | `C105_far` |
| `RungeKutta45` constructor | declared as `(hmax, hmin, …)`, defined as `(hmin, hmax, …)`: a caller that follows the declaration gets `std::clamp` with exchanged limits | `C106_exchanged` |
| `gradErgodicMetric` | outside the map the gradient is that of the mirror image, reversed: it pulls the robot away from where its image is drawn; the domain required by basis.hpp is not enforced | `C107_gradient`, `C107_outside` |
| `Basis` | the basis functions are not scaled to unit norm (mean squares 1, 1/2, 1/4) | `C107_orthogonal` |
| `validate_control` | a twist whose increment per step overflows is not rejected: the index conversion of the collision check is undefined | `C108_too_fast` |
| `RungeKutta45::solve` | the matrix is one column too small for every horizon that is not a multiple of `hmin`: with `hmin = hmax` even a body at rest throws | `C109_throws` |
| `DynamicWindow::window` | reads every component of `vb_` twice while `odomCallback` may store a new one: the window then reaches from one measured velocity to the other and the twist chosen may violate the acceleration limits with respect to both (velocity limits and collision checks are not affected) | `C114_refuted` |

Further findings:

- C117: the gaps between the circles of a search (C26) do not line up into a passage when the padding is at least three cells, but they do for two cells and a boundary radius of 22 cells: along the diagonal (18,18), (17,17), …, (0,0) no check sees the obstacle. The shipped radii (0.7 m and 0.2 m) are on the safe side for every map with cells of at most 10 cm. On maps of 0.1 m per cell every radius is a cell short because `float32` rounds the resolution up (C81, C93); the obstacle still stays 7 cells away (C117_single). The premise of less than a cell per period is not met at full speed: 1 m/s at ten iterations a second is a whole cell of 0.1 m.
- C118: obstacles seen at a grazing angle are erased by their own scan: updateMap enters the beams one by one, so beams that cross a cell on the way to a farther one take back the hit of an earlier beam in that cell. From unknown, two crossings after the hit bring the cell below the shipped threshold of 80 %; five crossings after the last hit do so whatever the history of the cell, because repeated hits saturate at 99 %.
- C119: the dynamic window cannot free a robot that is already within the collision radius: both validate_control and the rollouts of the search start checking after one time step, at most 14 cm (omni) or 10 cm (cart) away, so every candidate collides and the node publishes the zero twist for ever, however free the space behind the robot. The shipped robots get into this state 72 cm from a wall, without touching anything, as soon as the map shows the wall there.
- C120: `auto beam_angle = scan->angle_min` is a `float`, so the roundings of all previous additions add up in the direction of a beam: up to k * 2^-23 rad for beam k (0.13 mrad for the last of 1081 beams, 4 mm at 30 m). With an increment of 2^-10 + 2^-24 every addition is off by 2^-24 in the same direction. A `double`, or a product instead of a sum, would avoid it.
- C122: with an even number of samples on an axis the zero velocity is not among the sampled velocities of a robot at rest. explore_omni.yaml has vy_samples: 8, so every twist the dynamic window can choose from rest goes sideways at 7 cm/s or more; in a corridor just wide enough for the robot the search fails ('DWA Failed') although standing still is free. The search for the cart (3 and 5 samples) always contains the zero twist.
- C126: `buffer_size` is read as a double and converted; a value of -1 or below, or of 2^32 or above, is undefined behaviour at start-up rather than an error message; so is `num_basis` from 46341 to 65535 (the loop counter of the basis overflows).
- C132: The target grid starts at the lower edges of the map and need not end at the upper ones, so that a target in the middle is seen off to one side (C132_target_refuted).
- C132: With a single sample per range the window search only considers the lower end: at rest, the robot can only turn right (C132_samples_refuted).
- C132: The window search visits samples from low to high and keeps the first of equally cheap ones: between left and right it prefers negative velocities (C132_window_refuted).
- C132: Rays are walked from the smaller coordinate along their longer axis and ties go to the start: a ray to the left marks other cells than the mirror image of the ray to the right (C132_ray_refuted, C132_ray_iff).
- C132: Of several equally near obstacles the search order picks one, so that the direction to the nearest obstacle is not mirrored (C132_direction_refuted).
- C132: A pose on an edge between two cells belongs to the cell with the larger index, so that the collision check distinguishes left from right there (C132_check_refuted).
- C134: The cost of the dynamic window adds squared velocities in m/s to squared rates in rad/s, so that the preference between evading sideways and turning depends on the unit of length (C134_preference).
- C134: The barrier at the edges of the map is 0.05 wide in whatever unit the map is given (C134_barrier_refuted).
- C135: Whether a simulated twist turns is decided by the rate of turn, not by the angle turned, so that a slow turn over a long step is simulated as a straight line (C135_motion_refuted).
- C136: A larger boundary radius is not a more cautious setting: a wall next to the robot, reported with radius 0, is not reported with radius 3 (C136_wider_refuted).
- C138: More samples per axis of the velocity window can give a worse twist: going from three to four samples loses the middle one (C138_refuted). Going from n to 2n-1 never does.
