# Formal model of tsid in Lean 4

The model is a hand transcription of the C++ sources in `/repo` (stack-of-tasks/tsid at the pinned commit).
The code was read as text; it was neither built nor run.  Line numbers in the comments of the model refer to `/repo`.

1. [Conventions of the model](#1-conventions-of-the-model)
2. [Layout](#2-layout)
3. [What is modelled, what is not](#3-what-is-modelled-what-is-not)
4. [Trusted base](#4-trusted-base)
5. [Properties: what is modelled and how it is proved](#5-properties)
6. [Where the code does not do what is claimed](#6-findings)
7. [Testing the theorems](#7-testing-the-theorems)

## 1. Conventions of the model

* **Scalars.** `double` becomes an element of an arbitrary linearly ordered field `K` (`ℚ` in executable examples, `ℝ`
  where square roots matter).  Rounding, overflow, NaN and infinities are *not* modelled, except in `Model/Files.lean`
  (C59), which has its own type of floating-point values.  Division by zero is excluded by hypotheses.
* **Square roots.** Code that calls `sqrt`, `norm` or `normalize` takes the root from the class `HasSqrt K`; theorems
  assume `LawfulSqrt K` (non-negative root whose square is the argument), which `ℝ` satisfies.
* **Vectors and matrices.** Eigen's dynamic vectors and matrices are `Vec K` / `Mat K` (size plus an entry function).
  Only entries inside the size mean anything; no theorem speaks about others.  Assignments check the sizes that Eigen
  requires and yield *undefined behaviour* on a mismatch (in debug builds Eigen asserts instead).
* **Uninitialised memory** is an argument of the model over which theorems quantify.
* **Outcomes.** A stateful operation returns `Res`: `ok` (new state and result), `throw` (the state left behind by an
  exception), `abort` (a failed `assert` of tsid in a build without `NDEBUG`), `ub` (undefined behaviour: out-of-bounds
  access, Eigen size mismatch, invalid cast).  Where the build flag matters it is a parameter (`nd`).
* **Histories.** `runOps step s os` runs any list of calls; a caller catches exceptions and goes on with the state that
  was left behind.  Properties of objects are stated for all histories.
* **Sharing.** `std::shared_ptr<ConstraintBase>` objects shared by the HQP data and by the task/contact lists live in an
  explicit heap indexed by allocation number; user objects (tasks, contacts) are referenced by identity.
* **External code.** pinocchio kinematics and dynamics, Eigen decompositions and the QP back-ends are parameters.  Task
  `compute` results enter the formulation as arbitrary constraints, so formulation theorems hold for every task,
  including user-defined ones; the tasks of the repository are modelled separately.

## 2. Layout

* `lean/Verif/Model/*`  – definitions transcribed from the code, each with a citation of file and lines.
* `lean/Verif/Spec/*`   – specifications written independently of the helpers of the model.
* `lean/Verif/Lemmas/*` – auxiliary lemmas.
* `lean/Verif/Props/*`  – the property theorems `Cxx_...`, each followed by a concrete case that meets its hypotheses.
* `properties.jsonl` – the properties; `MANIFEST.json` – their status and theorems; `seeded/LOG.jsonl` – seeded faults.

A theorem whose name ends in `_partial` proves less than the property; its comment says what is missing.  Theorems without
that suffix that are listed under a partial property either prove a part that needs no further hypothesis or are
*witnesses*: they prove that the property is false of the code in the missing case.

## 3. What is modelled, what is not

| source | model | left out |
|---|---|---|
| `formulations/inverse-dynamics-formulation-acc-force.cpp`, `-base`, `contact-level` | `Formulation`, `RobotProgram` | `print`, output of the profiler |
| `include/tsid/bindings/python/formulations`, `solvers/HQPData.hpp`, constraints returned by tasks and contacts | `Python` | conversions by Boost.Python and eigenpy, life times of objects kept alive by Python, trajectories other than samples, the setters (one-line forwards) |
| `include/tsid/bindings/python/utils/container.hpp`, `include/tsid/bindings/python/constraint`, `solver_helper` | `PythonProblem` | printing, conversion of arguments; a constraint passed to `append` is the same object (Boost.Python) |
| `exercizes/tsid_manipulator.py`, the loop of `ex_1_ur5.py` | `Manipulator` | viewer, files, logs, plots, the solver object; samples returned by the bindings are copies; arrays of numpy are values (the change in place in `integrate_dv` concerns only the log) |
| `demo/demo_quadruped.py` | `Quadruped` | viewer, prints, plots, the solver object |
| `demo/demo_tsid_talos_gripper_closed_kinematic_chain.py` | `Gripper` | viewer, prints, the solver object, pinocchio's `integrate` (a parameter) |
| `exercizes/ex_0_ur5_joint_space_control.py` | `JointControl` | viewer, prints, plots, the solver object, pinocchio's `integrate` (a parameter) |
| `exercizes/tsid_biped.py`, the loops of `ex_4_walking.py`, `test_cop_task.py` | `Biped` | viewer, files, logs, plots, the solver object, `get_*_3d_pos_vel_acc`, `integrate_dv`; samples returned by the bindings are copies (they return by value) |
| getters in `src/tasks`, `src/contacts`, `src/robots/robot-wrapper.cpp`, `include/tsid/trajectories/trajectory-base.hpp`; attributes in `include/tsid/bindings/python` | `Attributes` | references into the object (the value is read at the time of the call); `TaskContactForceEquality` cannot be constructed from Python (its constructor takes a `ContactBase`, which is not registered), its attributes are modelled all the same |
| `contacts/contact-6d.cpp`, `contact-point.cpp`, `contact-two-frame-positions.cpp` | `Contact`, motion part in `CartesianTasks` | `contact-base` (accessors only) |
| `contacts/measured-3d-force.cpp`, `measured-6d-wrench.cpp` | `MeasuredForce`; in `Formulation` the torques are inputs of a cycle | pinocchio's frame Jacobian (input) |
| `tasks/task-joint-bounds`, `-joint-posture`, `-actuation-bounds`, `-actuation-equality` | `JointTasks`, `Mask`, `Dims` | conversion of a mask entry that does not fit an integer |
| `tasks/task-joint-posVelAcc-bounds` | `PosVelAcc` | messages |
| whole programs: `formulations/inverse-dynamics-formulation-acc-force.cpp` together with all tasks, contacts and measured forces | `Program` | pinocchio (a `Snapshot` per cycle); exceptions inside `compute` of a task (answered by `ub`) |
| `tasks/task-se3-equality`, `-two-frames-equality`, `-com-equality`, `-angular-momentum-equality` | `CartesianTasks`, `Geometry` | pinocchio's kinematics (inputs) |
| `tasks/task-cop-equality`, `-contact-force-equality`, `-capture-point-inequality` | `ForceTasks` | – |
| `math/constraint-*.cpp` | `Constraint` | printing |
| `math/utils.cpp`, `math/utils.hpp` | `SE3Utils`, `Quaternion`, `MathUtils`, `Files` | `toString`, the decomposition itself |
| `trajectories/*` | `Trajectory` | – |
| `robots/robot-wrapper.cpp` | `Robot`, `RobotSizes`, `RobotProgram` | pinocchio's algorithms (inputs), URDF loading |
| `solvers/*` (eiquadprog, -fast, -rt, qpmad, ProxQP, OSQP, base, factory) | `Solver`, `SolverSettings`, `SolverCopy`, `SolverOutput` | the external solvers (parameters of `SolverOutput`), the checks of the solution in debug builds (they only print), `ELIMINATE_EQUALITY_CONSTRAINTS` (not compiled by default), `solvers/utils.cpp` (printing), `HQP_status_string`; `solver-HQP-qpoases.cpp` is an empty file |
| `utils/statistics.cpp`, `utils/stop-watch.cpp` | `Timing` | output, WIN32 branch |

## 4. Trusted base

* The kernel of Lean 4.33.0, and Mathlib as far as definitions used in statements are concerned (fields, orders, finite sums,
  `Real.sqrt`, `Matrix`).
* Axioms: every theorem depends on at most `propext`, `Classical.choice` and `Quot.sound`.  No axioms were added; there is no
  `sorry`, `native_decide`, `bv_decide`, `implemented_by` or `unsafe`.
* Faithfulness of the transcription (section 3) and the replacement of `double` by an ordered field.
* The vector and matrix operations shared by model and specifications are not taken on trust: C96 identifies them with
  Mathlib's.
* Assumptions about external code, each visible as a hypothesis or as a structure in the statements:
  * pinocchio: all its results (mass matrix, non-linear effects, Jacobians, drifts, velocities) are arbitrary inputs of the
    right size; where needed, rotations are assumed orthogonal (e.g. C39) or proper (C55, C74).  `log3` is arbitrary, except
    in `C55_zero_iff`, which assumes that among rotations it vanishes at the identity only (`LogFaithful`);
  * Eigen: `JacobiSVD` returns a decomposition as in `Spec.IsSvd` (C56, C57, C75); the conversion of a matrix into a
    quaternion is written from its documentation (C98);
  * QP solvers: nothing is proved about them.  C44–C49, C65 and C68 assume nothing about them and speak about the problem
    handed to them: its feasible points, its cost and its optimal points.  C85 assumes of an external solver that succeeds
    what `Spec.Sound` says: an optimal point of the right size, its cost, and an array of active constraints that begins
    with the equalities;
  * ProxQP and OSQP: how a new solver object takes over settings (C51).

## 5. Properties

P = proved for the quantifier of `properties.jsonl`; p = partial.  The last column says what is missing; section 6 lists the
cases for which a witness is proved.  Restrictions in the last column without a witness are open, not refuted.

| | | modelled | how proved | missing / witnesses |
|---|---|---|---|---|
| C01 | P | assembly of the base dynamics block, `decodeSolution` | invariant of the heap over all histories (shapes, contents of the blocks), then sums over the blocks of the variable | |
| C02 | P | actuation-task blocks, decoding of torques | rows of the block equal the decoded torque | |
| C03 | P | motion-task blocks | columns outside the block are zero in every reachable state | |
| C04 | P | contact entries (motion, force inequality, regularisation) | slices tile the force variable (`Tiled`) | |
| C05 | p | force-task blocks | as C03/C04, for the associated contact | re-association leaves stale columns |
| C06 | P | all mutating calls as `step` on `State` | induction over histories (`Inv`) | |
| C07 | p | counters `nEq`, `nIn` | refinement of counters to the rows of level 0 | removal of a force task from level 0 decrements nothing |
| C08 | p | level lookup with explicit out-of-range outcome | direct | a level of at least 2 is out of bounds |
| C09 | P | `addMotionTask`, `addForceTask`, `addActuationTask` with bad arguments | direct: state returned unchanged | |
| C10 | p | addition followed by removal | equality of states up to the heap of dead objects | counters with force tasks at level 0 |
| C11 | p | `removeTask`, `removeRigidContact` | list lemmas on first matches; names that belong to no task: the exact effect (`C11_removeTask_foreign`) | clashing names |
| C12 | P | `updateTaskWeight` | list lemmas over levels | |
| C13 | p | `updateRigidContactWeights` | as C12 | motion entry at level 0 |
| C14 | p | breaking transitions in `computeProblemData` | algebra of the interpolation along cycles | a transition skipped by the loop; breaks begun below the minimum; contacts changed between solution and break |
| C15 | p | expiry loop | induction over the list of transitions; eventually all are gone | two transitions that expire at once |
| C16 | p | removal by transition | invariant on pending transitions | stale transition of an earlier registration |
| C17 | p | cached decoding | two runs of getters | second getter with another solution |
| C18 | p | `getContactForces` | tiling of the force variable | a contact added after the decoding is read out of bounds; equal names (witnesses) |
| C19 | P | additions, HQP data | permutation of level lists, closed form C71 | |
| C20 | P | measured forces | sum over the list | |
| C21 | p | two cycles in a row, any two histories | relational invariant, closed form | re-association |
| C22 | P | friction pyramid of 6d and point contacts | orthonormal frame algebra; normals of any length (`C22_any_normal`) | normals that are not of unit length change the friction coefficient and the limits (witnesses) |
| C23 | p | as C22 | pyramid contained in the cone of √2·μ; cone of μ/√2 accepted | pyramid leaves the cone of μ |
| C24 | P | contact setters | histories refine to a record of settings | two-frame contacts check no limits (statement says so) |
| C25 | P | force generator | sums over corners, cross products | |
| C26 | p | regularisation entry | histories of setters | `setContactPoints` does not refresh it |
| C27 | P | gains of point and two-frame contacts | histories | |
| C28 | P | `TaskJointBounds` | ordered-field algebra, histories | |
| C29 | P | limits from position limits | quadratic in time over the whole step | |
| C30 | P | viability limits | root of the quadratic, stopping distance | |
| C31 | P | `computeAccLimits` | case analysis of the min/max cascade | |
| C32 | p | as C31 | as C31 | another upper limit below the lower position limit |
| C33 | p | constructor, `setTimeStep` | histories | factor two, stale position factors |
| C34 | p | `setImposeBounds` | histories | stale bounds |
| C35 | p | mask of the bounds task | recursion of the mask loop | all masks but the full one |
| C36 | p | posture task | mask loop, histories | masks with entries other than 0 and 1 |
| C37 | p | SE3, two-frames, CoM, angular-momentum tasks | rows of `compute` against the masked law, histories; `C37_*_rows`: residual of each row is achieved minus demanded | angular momentum ignores its mask |
| C38 | p | `getAcceleration` | residual of the constraint plus drift | CoM and angular momentum subtract the drift; capture point is UB |
| C39 | P | local and world branches | rotation of both sides | (witness: isotropy is needed) |
| C40 | p | CoP task, alone and inside the formulation | sums over contacts and corners, slices of C04 | tilted contacts; two-frame contacts are UB |
| C41 | p | force-tracking task | histories refine to the list of past errors; induction for the leaky integral | unset gains are UB; point contacts give an ill-formed constraint |
| C42 | P | capture-point task | order-preserving change of variable | (centre of mass above the ground) |
| C43 | p | actuation tasks | mask loop, histories | rejected masks change the task |
| C44 | P | eiquadprog, -fast, -rt | induction over constraint lists | (rt: template sizes of the problem) |
| C45 | P | cost assembly of all back-ends | quadratic forms; uniqueness by strict convexity, existence over ℝ by compactness | |
| C46 | P | ProxQP, OSQP | as C44 | |
| C47 | p | qpmad | as C44 | problems with simple bounds |
| C48 | P | all back-ends | C44–C47 composed | |
| C49 | p | rejection of hierarchies | direct | empty level 0 |
| C50 | p | status of `solve` | case analysis of return codes | stale statuses, eiquadprog with NaN cost |
| C51 | p | settings across `resize` | histories of setters and solves | a maximum of 0 iterations; OSQP settings given after the first `solve`; verbosity in debug builds |
| C52 | P | rotor inertias, `mass` | histories | |
| C53 | p | world-oriented velocities | rotation algebra | uninitialised translation |
| C54 | P | `SE3ToVector`, `vectorToSE3` | direct, entry by entry | |
| C55 | P | `errorInSE3` | group algebra | |
| C56 | p | `pseudoInverse` | matrix algebra from the SVD contract, uniqueness of the Moore-Penrose inverse | tolerances ≤ 0 give the zero matrix |
| C57 | P | `solveWithDampingFromSvd`, `svdSolveWithDamping`, `dampedPseudoInverse` | normal equations, completion of squares; least norm for damping zero | |
| C58 | p | matrix files as byte lists | codec round trip | truncated files are read as complete; no resizing |
| C59 | p | `isFinite`, `is_nan` | case analysis | `is_nan` is inverted |
| C60 | p | `Statistics` | refinement to the list of stored values | minimum with zeros, maximum of negative values |
| C61 | p | `Stopwatch` | refinement to the list of laps | `pause` mixes clocks; start at reading zero; second stop; stop by another clock |
| C62 | P | constant trajectories | histories | (SE3 trajectory without reference: zero rotation) |
| C63 | P | `checkConstraint` | direct | |
| C64 | P | constraint classes | histories | |
| C65 | p | formulation + contacts + QP + decoding | composition of the formulation and back-end theorems: every point feasible for the assembled QP decodes to a consistent solution | equal names (witness), re-association, level 1 of equalities, unit normals (others: C22) |
| C66 | p | robot copied by the formulation | two-object histories | parameters changed after creation |
| C67 | p | solver factory | direct | declared types that are not created |
| C68 | p | `resize` + `retrieveQPData` on reused solvers; as for C44–C49, C65 and C85 the history mixes earlier problems with direct calls of `resize` | all entries overwritten, for any old memory | empty level 0, one level |
| C69 | P | HQP data | refinement to the list of registrations, all histories | |
| C70 | p | all block writes | sizes from the invariant | force task whose contact was removed; a task added twice (witnesses) |
| C71 | P | `computeProblemData` | closed form of every entry | |
| C72 | p | task getters | histories | posture `position()`, inherited getters |
| C73 | p | setters | histories | unchecked setters |
| C74 | P | `framePosition`, `frameVelocity`, `frameAcceleration`, `frameClassicAcceleration` | rigid-body algebra | |
| C75 | p | null-space bases | orthonormal completion, counting of sorted singular values | tolerances ≤ 0; thin decompositions are UB |
| C76 | P | both measured-force classes, with the reused Jacobian buffer | histories, power of the frame's twist | |
| C77 | p | `isStateViable` | case analysis of the five tests, stopping distance | last test adds the tolerance on the wrong side and overwrites earlier findings |
| C78 | P | `TaskJointPosVelAccBounds::compute` iterated, double-integrator joints | existence of a braking acceleration in every viable state (`Lemmas/Feasible`), induction over the cycles | |
| C79 | P | the equality tasks in continuous time | Lyapunov function of the damped oscillator, monotonicity from the derivative | orientation errors are not part of the property |
| C80 | p | Python methods of the formulation, problems held by a Python program | every Python call has the effect of the C++ call it stands for (`meant`: same method, default arguments), values returned by the getters, frame of the calls that leave constraints alone, zeroing by `resizeHqpData` | violated: adding a contact wipes held problems; levels ≥ 2 become 1 |
| C81 | p | constructors of the constraints that the Python wrappers build | cases on the source; `C35_full_mask_partial` for the limits | violated by the limits of robots with a floating base |
| C82 | p | copy constructor of `SolverOSQP` | equality of the two runs of `retrieveQPData`; invariant of the settings (`osqp_run`) | violated for problems with the number of variables of the original |
| C83 | p | constructors of `RobotWrapper`, as functions of the sizes of the joints | linear arithmetic over the sums of sizes | violated: every root joint is taken for a free-flyer |
| C84 | p | as C12, C48, C71 | comparison of two minima; `C71_closed_form` for the two histories | a common factor of the weights matters with the regularisation |
| C85 | p | `solve` around the external solver, `HQPOutput`, `getObjectiveValue`; the external solver is any function from the data and the start vector to an answer | invariant on the size of the output; C44–C49 for the data; `Sound` states what the external solver promises, and an ideal solver meets it | details that are never reported, left-overs after failures |
| C86 | p | contacts, centre-of-pressure task, control cycle | moment about the weighted mean of the points; weights are the normal components, which friction makes non-negative (C22); C40 for the task, C65 for the cycle | cycles: as C65 |
| C87 | p | objects, formulation and robot state in one state machine (`Program`) | per object, the text of the program determines the settings (histories of C27, C28, C36-C43, C76); the formulation sees a tidy history, C65 gives the entries | distinct names, no re-association, 0/1 masks, C29-C35 for joint limits |
| C88 | p | as C87 | per class of object, `compute` succeeds after any history and its constraint has the rows that the text of the program determines; `assemble_fits` of C70 | as C87; a throwing transition is not undefined behaviour |
| C89 | p | as C87, with the force regularisation of the contacts | per class, the squared residual of the computed constraint is the squared error of the law on the selected axes; `HasReg`: invariant of the regularisation over calls, transitions and cycles; sum over the entries of level 1 by C02–C05 | as C87; tasks of priority 1 are equalities; force tasks keep a registered contact |
| C90 | p | C87–C89 and `solve` of C85 | `program_fits` (C88) gives the sizes, hence `Admissible`; C85 gives the optimum of the levels, C87 and C89 translate level 0 and level 1 into the text; existence and uniqueness by C45 | as C87–C89; fixed sizes for eiquadprog-rt |
| C91 | P | all calls of whole programs (`Program.step`), conditions `WellTyped` on the text | for each class an accepted call returns or throws in every state that good calls reach; for the formulation the invariants of C06–C21; for cycles C88; induction over the program, each prefix being a good program | programs outside `WellTyped`; lifetimes |
| C92 | p | C87–C91; limits of contact forces as a function of the calls in the text (`ForceLimits`) | both directions for each class (C22–C43); converse of C87 by reading the tiling of the columns backwards; limits by induction over the program (`run_limits`); optimality from C90; from the text alone with C91 | combined joint limits: the constraint of the object stands for the demand (replaced by the limits themselves in C99); gradual removals; the rest as C87–C91 |
| C93 | p | C87–C92; control loops as infinite sequences of calls and cycles (`Spec/ControlLoop`) | the error obeys a linear recursion with two states; a quadratic Lyapunov function found from the Jury conditions gives the rate (`Lemmas/Sampled`); the two witnesses of `C93_sharp` by an area that does not shrink and by an eigenvector; induction over the cycles for `C93_steady` and `C93_solved_partial` | accelerations are realised exactly and constant in a period; rotational errors of frames; success of the external solver |
| C94 | p | C87–C93; combined joint limits and joint bounds in control loops (`Spec/ControlLimits`) | the four kinds of limits of one joint in a viable state are equivalent to safety during the horizon (C29, C30, C78 in both directions); the object of the task after any program by the invariant of C31; a satisfying vector from C92 and the equations of motion solved for the torques; induction over the cycles | accelerations are realised exactly and constant between cycles; settings do not change; enough room; fully actuated robots for feasibility |
| C95 | p | getters and Python attributes of all settings (`Model/Attributes`, `Spec/Attributes`) | one call at a time for every class, then induction over the history (`reads_of`) | violated by the code in six places (below); for these the exact value read is proved |
| C96 | P | `Model/Basic`, `Model/Geometry` | identification with Mathlib's `Matrix`, `crossProduct`, `dotProduct`, Euclidean norm, homogeneous matrices (`Spec/Primitives`) | a reflection instead of a rotation (witness) |
| C97 | p | `Model/Dims`, `CartRows.dim`, `Masked.dim`, `PosVelAcc.dim` | invariants of C28, C36, C37, C40-C43 | bounds with a mask, refused masks, force of a point contact (witnesses) |
| C98 | P | `Model/Quaternion` (with Eigen's conversion) | the polynomial identities of rotations in each branch, against Mathlib's `Quaternion` | reflections instead of rotations (witness) |
| C99 | p | C87–C92, stated without objects, columns or rows (`Behaviour`, `Intended`, `aim`) | each class of constraint read as a demand on the behaviour (C92), equations of motion as virtual power (C76 and `contacts_power`); strict convexity for uniqueness; compactness for existence (C45); permutations of the registry for the order | combined joint limits that cannot be kept (C104; gradual removals: C102); the rest as C87–C92 |
| C100 | p | gradual removals in the terms of C99 (`releaseText`, `LetsGo`, `Setup.releasing`) | the one pending break followed through the calls (`run_quiet`, `after_quiet`), C14 for its start, C99 with other limits (`exact_with`); C14–C15 for the registration | two-frame contacts (false); as C99 (several removals at a time: C102) |
| C101 | p | `ConstraintLevel`, `HQPData` and the constraint classes as used from Python (`Hand`), against the text of the program (`problemText`, `Holding`) | one invariant over programs (`HandAt`), members followed call by call (`holding_apply`), C85 for the solution | constraints resized later; sizes that do not agree (false); as C85 |
| C102 | p | `computeProblemData`'s transitions, `removeRigidContact`, `decodeSolution` against the story told by the calls (`Story`, `Fading`) | one invariant `Tells` over all calls (`step_story`), then `exact_with` and C85 as for C100 | as C92, C90 |
| C103 | P | the build flag `ndebug` wherever it occurs in the model; `Program.step`, `Solve.solve` | both builds compared call by call (`SameOrStops`); `transitions_abort` tells where a cycle stops, then C91's invariant and C102's story (`C103_stops`, `C103_debug`); invariant `Held` for careful programs | assertions in printing or in Eigen and the external solvers are outside the model |
| C104 | p | C29–C35, C87–C94, `LimitSettings.Keeps` | flag by flag: bounds of the last cycle or those of a new task (`C104_never`), each equivalent to its meaning (C29, C30 in both directions); `C31_intersection`; `Wants`/`Viable` of C99, C100, C102 are stated with it; induction over the cycles for the speed limit | C32, C34, C35; accelerations are realised exactly |
| C105 | p | C93, C94, C104 with inexact motions (`Spec/Disturbed`) | the quadratic form of C93 shrinks by a factor per period (`jury_form`); Young's inequality for it with a disturbance; summed up (`disturbed_rate`); the laws of C93 (`law_*`); for speeds a convex combination per period; errors of measurement are errors of the law (`C105_inexact`) | measurement errors for other tasks than posture tasks; rotations; position limits under disturbances; C87 |
| C106 | p | C99 in loops; `Loop.Optimal`, `Loop.Prefers`, `Loop.Reconcilable` (`Spec/SoftLoop`) | errors are sums of squares, so one loss is at most twice the objective, which is at most that of any other behaviour (`C106_cycle`); the deviation from the law is a disturbance in the sense of C105 (`C105_inexact`); for frames with local axes the deviation is rotated (`rotated_sq_le`); `C99_exact_partial` for every cycle of a loop with a solver (`optimal_of_solved`) | as C99; rotations |
| C107 | p | C92; `Checked`, `Declared`, `Setup.noted` (`Spec/Static`): conditions on texts, without states | the invariant `Reading` ties the states to the text: what is registered is what was read, every task has the shape its declaration announces (`task_shape`), its name never changes (`Lemmas/ConName`); so every call that passes the check may be made in the sense of C92 (`fine_may`) and returns or throws as foreseen | gradual removals: C110 |
| C108 | p | `Biped`: every method of `TsidBiped` is the list of library calls it makes, with the members it keeps; `walk`, `landing`: the loops of the exercises. `Spec/Biped` says which calls are proper, what is registered, what the feet should do | the text of the program passes the check of C107 (`inv_all`: induction over the calls, with the registered items up to order, the calls that reach each task, the samples kept by the class); then C107. References: the calls on the foot tasks and contacts are folded into their settings. Walking: induction over the steps. Settings and exceptions (`Props/BipedSettings`): the calls that reach each task are folded into its settings; the argument checks of C109 are looked up for every call of the class. A robot with one motor and two feet satisfies the hypotheses (`Props/BipedDemo`, `Props/BipedSettingsDemo`) | gradual lifting; `get_*_3d_pos_vel_acc` |
| C109 | p | `Setup.Refuses` (`Spec/Exceptions`): the argument checks as conditions on the text; `uncaught`: a run that ends at the first exception | `Reading` of C107 gives the declared shape of every object at the call; class by class, the modelled setter throws exactly under the condition (`task_throws`, `contact_throws`, `applySet_throws`, `add_throws`); `C109_uncaught` by induction over the text | gradual removals: C110; constructors |
| C110 | p | `Setup.log` (`Spec/Gradual`): registrations and the story of C100 computed from the text; `Vetted`, `Setup.Declines`: conditions on texts | the invariant `Logged` ties the states to the text as `Reading` does for C107, with the story of C100/C102 for the limits (`logged_snoc`); which calls throw as in C109, a cycle exactly if a transition lowers a limit below the minimum (`logged_throws`); `C110_checked`: the programs of C107 are special cases. The arm of C92 lets go of its contact within four seconds and takes it again (`Props/GradualDemo`) | constructors; for the optimum as C102 |
| C111 | p | `Manipulator` (`Model/Manipulator`): the constructor of `TsidManipulator`, its use by `ex_1_ur5.py`, `integrate_dv`; `IsArm`, `ArmObeys`, `armAim`, `ArmBest` (`Spec/Manipulator`): what an arm must do and should make small, in plain sums | the text passes the check of C107 (`arm_upto`), the settings of each task are read off the text, so that `Intended` and `aim` of C107 become `ArmObeys` and `armAim` (`C111_exact`); optimum by C92; uniqueness by strict convexity of the posture cost at the midpoint of two solutions (`aim_mid`, `obeys_mid`); exceptions by C109; the speeds by the velocity limits of C17 (`C111_speed`); derivatives of the sinusoid over the reals; existence by C99 over the reals, and an arm without acceleration shows that the limits can be kept in every step (`C111_goes_on`). Two sliding joints (`Props/ManipulatorDemo`) | success of the external solvers; viewer |
| C112 | p | `Quadruped` (`Model/Quadruped`): the calls of `demo_quadruped.py`, its reference, its loop; `IsQuadruped`, `QuadObeys`, `quadAim`, `QuadBest` (`Spec/Quadruped`): what a robot on four point feet must do and should make small, in plain sums (d'Alembert's principle, friction pyramid) | the text passes the check of C107 (`quad_upto`), the settings of contacts and tasks are read off the text, so that `Intended` and `aim` of C107 become `QuadObeys` and `quadAim` (`C112_exact`); optimum by C92, existence and uniqueness by C99, so that the back-ends that regularise return the same (`C112_agree`), exceptions by C109; the torques absorb any acceleration with the same base rows (`C112_soft`); the cost of one admissible behaviour bounds the foot errors of the best (`C112_feet`, `C112_stand`); where the feet should be after grounding (`C112_ground`). A body with four feet and one motor (`Props/QuadrupedDemo`) | success of the external solvers; viewer |
| C113 | p | `Gripper` (`Model/Gripper`): the calls of `demo_tsid_talos_gripper_closed_kinematic_chain.py`, its reference, its loop; `IsGripper`, `GripObeys`, `gripAim`, `GripBest` (`Spec/Gripper`): what a robot with a closed chain and two passive joints must do and should make small, in plain sums | as C112: `grip_upto`, `C113_exact`, then C92, C99, C109; the motors absorb any acceleration with the same passive rows (`C113_soft`); the cost of one admissible behaviour bounds the gap error of the best (`C113_gap`); the mean of two best choices would be better by the posture and force terms (`C113_unique`), so all back-ends with the same regularisation return the same (`C113_agree`); the states of the loop add up (`C113_closed`). A finger with three joints, whose chain passes a load on the first joint to the motor (`Props/GripperDemo`) | success of the external solvers; viewer; pinocchio's `integrate` |
| C114 | p | `JointControl` (`Model/JointControl`): the calls of `ex_0_ur5_joint_space_control.py`, its reference, its loop, the integration; `IsJointArm`, `JointObeys`, `desired`, `jointAim`, `share`, `JointDriven` (`Spec/JointControl`) | `joint_upto`, `C114_exact`, then C92, C99, C109; the aim is the square distance from `share * desired` plus a constant (`C114_unique`); the errors satisfy a linear recursion of second order: the criterion of Schur and Cohn (`second_order`, with a quadratic form for complex roots) and, where it fails, a combination of the errors that does not shrink (`pd_diverges`); for moving references the recursion is split by its complex roots (`second_order_bounded`, `C114_tracks` in `Props/JointControlTrack`). The arm of `Props/ManipulatorDemo` with the constants of `ur5_conf.py` (`Props/JointControlDemo`) | success of the external solvers; viewer; the constant of `C114_tracks` is not explicit |

## 6. Findings

Each finding is a theorem (a concrete run of the model, or a statement for all inputs).

| theorem | what the code does |
|---|---|
| `C05_reassociation_leaves_stale_columns`, `C21_reassociation` | `setAssociatedContact` on a registered force task leaves the old block in the matrix |
| `C07_counters_wrong`, `C10_counters_wrong` | removing a force task from level 0 does not decrement `nEq`/`nIn` |
| `C08_higher_levels` | adding at a level of at least 2 indexes the HQP data out of range |
| `C11_duplicate_names`, `C11_removeTask_base_dynamics` | removal by name takes out the wrong entry; `removeTask("base-dynamics")` removes the dynamics |
| `C11_removeTask_contact_entry`, `C65_removed_force_constraint` | `removeTask(contact + "_force_constraint")` (likewise `_motion_task`, `_force_reg_task`) deletes that constraint of a registered contact and returns `false`; the contact stays registered, solutions no longer obey its force limits, and it cannot be removed properly any more |
| `C13_level0_motion` | the weight of a motion entry at level 0 is not found |
| `C14_skipped`, `C15_simultaneous` | erasing inside the loop skips the next transition for one cycle |
| `C14_throws` | a break that begins below the minimum normal force makes the next cycle throw |
| `C16_stale_break` | a contact added again is removed by the transition of its earlier life |
| `C17_cached` | getters return the first decoded solution |
| `C18_out_of_bounds` | a contact added between the decoding and the getter is read outside the cached force vector |
| `C22_long_normal`, `C22_short_normal` | `setContactNormal` accepts vectors of any length and does not normalise them: a normal of length `L` multiplies the friction coefficient by `L` and divides the force limits by `L`; below a length of 10⁻⁵ friction can vanish altogether |
| `C18_same_name`, `C65_same_name`, `C70_added_twice` | names are not checked: with two contacts of the same name the getter returns the forces of the first for both, and removing one takes out the motion constraint of the other; a force task added twice and removed once makes a later cycle write out of bounds |
| `C23_outside_cone` | the friction pyramid is circumscribed: accepted forces may exceed the Coulomb cone by √2 |
| `C24_twoFrames_unordered` | no check of the force limits of two-frame contacts |
| `C26_stale` | regularisation after `setContactPoints` |
| `C32_overruled`, `C33_doubled`, `C33_stale_factor`, `C34_stale`, `C35_illformed`, `C35_wrong_joint` | joint-bounds task |
| `C36_mask_ub`, `C36_rejected_mask_changes`, `C43_rejected_mask`, `C43_bounds_mask` | masks are changed before they are rejected |
| `C37_am_mask_ignored`, `C38_com_witness`, `C38_am_witness`, `C38_capture` | masks and accelerations of Cartesian tasks |
| `C40_tilted`, `C40_two_frames` | CoP task mixes world and contact axes; invalid cast |
| `C41_unset_gains`, `C41_point_contact` | force-tracking task |
| `C44_rt_fewer`, `C47_bounds`, `C47_positive_min`, `C47_appearing_bounds`, `C49_empty_level0`, `C68_empty_level0`, `C68_one_level` | QP assembly |
| `C50_eiquadprog_nan`, `C50_fast_stale`, `C50_proxqp_stale` | statuses |
| `C51_*_zero`, `C51_osqp_late`, `C51_base` | settings |
| `C53_uninitialised` | `frame*WorldOriented` uses an SE3 with uninitialised translation |
| `C56_zero_tolerance`, `C56_no_options`, `C75_zero_tolerance`, `C75_thin` | pseudo-inverse and null space |
| `C58_truncated`, `C58_sizes`, `C58_empty_file`, `C58_never_reported` | matrix files |
| `C59_inverted` | `is_nan` |
| `C60_min_zero`, `C60_max_negative`, `C61_pause`, `C61_pause_ticks`, `C61_time_zero`, `C61_second_stop`, `C61_other_clock` | statistics and stopwatch (`pause` adds clock ticks to seconds) |
| `C62_se3_without_reference` | SE3 trajectory before a reference is set |
| `C66_stale` | the formulation keeps a copy of the robot |
| `C67_factory_partial` | solver types the factory does not create |
| `C70_orphaned_force_task` | force task whose contact was removed |
| `C77_missed`, `C77_viable_reported` | `isStateViable` reports nothing for a joint at rest far below its limit and reports a viable state |
| `C78_needs_room` | without room for braking the limits of a viable state contradict each other |
| `C72_two_frames_dummy`, `C73_*` | getters and setters of motion tasks |
| `C80_held_wiped` | A problem that Python keeps from `computeProblemData` shares its constraints with the formulation; `addRigidContact` sets all of them to zero, so that a solver called with it afterwards solves a problem every vector satisfies |
| `C80_level_replaced` | The Python wrappers take the priority level of a contact as `const bool`: level 2 and above silently become 1 |
| `C81_wrong_coordinates` | For a robot with a floating base the constraint Python gets from `TaskJointPosVelAccBounds` is a `ConstraintBound` of size `na`: it bounds the first `na` accelerations, those of the base, by the limits of the joints |
| `C82_same_variables`, `C82_same_sizes` | A copy of a used `SolverOSQP` has the sizes of the original and empty matrices, so that `resize` does nothing for the next problem with as many variables and `retrieveQPData` writes out of bounds; without a cost this happens exactly when the numbers of rows agree as well |
| `C82_settings_lost` | The copy of a `SolverOSQP` has a maximum of 1000 iterations again, and if its first problem has the sizes of the original, none of the settings reaches the external solver |
| `C83_other_base` | `RobotWrapper(filename, dirs, rootJoint)` subtracts 6 and 7 whatever the root joint is: with a planar base three motors too few are counted, and with fewer than six velocities `m_na` is negative |
| `C84_scale_regularised` | with the regularisation a common factor of the weights changes the solution |
| `C14_stale_force` | the break of a contact begins with entries of another contact if a contact has been removed since the solution was decoded |
| `C85_unreported` | eiquadprog and qpmad never report multipliers and active sets, OSQP and ProxQP no active sets; the iterations reported by eiquadprog, qpmad and OSQP are uninitialised memory |
| `C85_failure_keeps` | when ProxQP or OSQP fail, the output still holds the solution and the multipliers of an earlier problem |
| `C85_claims_solution` | eiquadprog-fast, told that a problem has no solution, reports an optimal one with the active set and iterations of the problem before |
| `C85_solves_partial` | `getObjectiveValue` of qpmad is always infinite |
| `C85_before_first_solve` | before the first `solve` the status and the iterations of the output are uninitialised memory in all back-ends |
| `C87_mask_after_add` | a mask with another number of axes, set while the task is registered, makes the next `computeProblemData` copy a matrix into a block of another size |
| `C95_force_python_Ki`, `C95_force_python_Ki_wrong` | The Python attribute `Ki` of `TaskContactForceEquality` is bound to `Kd` (`bindings/python/tasks/task-contact-force-equality.hpp` 65-68): it returns the derivative gain. |
| `C95_se3_python_mask`, `C95_twoFrames_python_mask` | The Python attribute `mask` of `TaskSE3Equality` and `TaskTwoFramesEquality` is `None`: the wrapper returns `void` (`task-se3-equality.hpp` 159, `task-two-frames-equality.hpp` 127). |
| `C95_limits_getMask` | `getMask()` and `hasMask()` of `TaskJointPosVelAccBounds` never see the mask: the class declares a second member `m_mask` (header, line 115) that hides the one they read. |
| `C95_actBounds_forgotten` | `TaskActuationBounds::mask` replaces accepted bounds by zeros, even if the mask does not change. |
| `C95_se3_rejected`, `C95_rejected_masks`, `C95_posture_mask_exact` | A pose reference and masks that are rejected by an exception are stored before the check and returned by the getters. |
| `C97_pos_vel_acc` | `TaskJointPosVelAccBounds::dim()` returns the number of actuated joints whatever the mask selects: it is the number of rows only if every joint is selected. |
| `C97_point_force` | `TaskContactForceEquality` for a point contact: `dim()` is 6, the matrix of the constraint has 3 rows and its vector 6. |
| `C97_rejected_mask` | A mask with an entry other than 0 and 1 is refused with an exception but stored; `dim()` then differs from the number of rows. |
| `C100_two_frames` | `ContactTwoFramePositions::getNormalForce` returns 0 (contact-two-frame-positions.cpp 59-61), so a gradual removal lowers the upper limit of the force components from 0 to a thousandth above the lower limit: with limits -1000 and 1000 (demo of the closed chain) each component is forced to about -1000 before the contact disappears, instead of fading out |
| `C100_readded` | a gradual removal leaves the lowered maximum normal force in the contact object: when the contact is added again its normal force is confined to a thousandth above the minimum, though the program never asked for it |
| `C101_resize_refused` | `HQPData.resize(n)` offered to Python (container.hpp 85, 112-114) cannot be used: there is no assignment of levels, and `append` adds behind the `n` empty levels, so after `resize(2)` every problem has more than two levels and all solvers refuse it |
| `C101_unchecked_vector` | `setVector`, `setLowerBound`, `setUpperBound` accept any size (constraint-equality.cpp 76-79), so a problem made in Python can hold constraints whose vector does not belong to the matrix; `setMatrix` and the constructors check |
| `C102_waits` | A cycle in which a contact's time runs out stops looking at the list of transitions (inverse-dynamics-formulation-acc-force.cpp 256-265, `break`), so in that cycle the maxima of all contacts that are being let go and come later in the list do not fall; with `n` contacts let go for the same time it takes `n` cycles until all are gone |
| `C103_at_once`, `C103_twice` | A contact that is removed at once, or let go a second time, while it is being let go leaves an entry in `m_contactTransitions`; when its time is over a debug build stops at `assert(false)` in `getTaskPriority` (inverse-dynamics-formulation-acc-force.cpp 605); a release build silently goes on |
| `C103_back` | If time goes back while a contact is let go (a simulation that starts again), a debug build stops at `assert(c->time_start <= m_t)` (line 250); a release build goes on |
| `C108_origin` | `exercizes/tsid_biped.py` 107-121: the constructor creates `trajLF`, `trajRF` from the placements of the feet but gives the tasks no reference, so until `set_*_3d_ref` is called or the foot is lifted the task of a foot asks it to go to the origin of the world, with weight `w_foot`. `ex_4_walking.py` runs `N_pre` cycles in this state; with contacts as constraints the feet cannot follow, with contacts as tasks (`w_contact >= 0`) the two compete. |
| `C108_reference` | `exercizes/tsid_biped.py` 231-247: `set_RF_3d_ref`, `set_LF_3d_ref` keep the orientation the foot had in the constructor, so a foot that was put down with another yaw is turned back at the next reference; `add_contact_RF`, `add_contact_LF` (279, 291) ignore their argument `transition_time`. |
| `C108_landing` | `exercizes/test_cop_task.py` 107-112: the return to both feet reads `contact_phase[N - 1]`, but the loop before it looks only at the phases up to `N - 2`. If the phase changes in the last sample, the contact of the foot that already stands is added a second time (what the library then does is the subject of the findings about repeated names). |
| `C108_com_origin` | `exercizes/tsid_biped.py` 139-141: the constructor samples a constant trajectory at the centre of mass but never gives it to `comTask`; until `set_com_ref` is called the task asks the centre of mass to go to the origin of the world, with weight `w_com`. |
| `C111_origin` | `exercizes/tsid_manipulator.py` 53-55: the constructor creates `trajEE` at the placement of the end effector but gives the task no reference, so a cycle before the first `eeTask.setReference` asks the end effector to go to the origin of the world, with weight `w_ee` (as `C108_origin`). Read, not proved: `integrate_dv` (113) changes the array `v` in place, and `ex_1_ur5.py` 99 passes the view `v[:, i]`, so the velocities the exercise keeps for its plots are those of the next step; the control is not affected. |
| `C112_soft` | `demo/demo_quadruped.py` 106: `addRigidContact(contact, w_forceRef, 1.0, 1)` registers the contacts at level 1, so the motion of the feet is a term of the cost with weight 1 and no constraint: every acceleration with the same effect on the base is admissible with unchanged contact forces, a foot may leave the ground while the optimiser counts on its push. `C112_feet` and `C112_stand` say how much of this the cost allows. |
| `C113_soft` | `demo/demo_tsid_talos_gripper_closed_kinematic_chain.py` 107: the contact that closes the kinematic chain is registered at level 1, so the closure is a term of the cost with weight 1 and no constraint: with an unchanged contact force the two frames may accelerate apart as far as the motors can do it. `C113_gap` says how much of this the cost allows. |
| `C114_unique` | `exercizes/ex_0_ur5_joint_space_control.py`: with a back-end that regularises (`DEFAULT_HESSIAN_REGULARIZATION` = 1e-8) the accelerations `dv` are `w/(w+1e-8)` of the desired ones `dv_des` which the exercise plots beside them; with the constants of `ur5_conf.py` the factor is 100000/100001 (`Props/JointControlDemo`), although nothing else competes with the posture task. |
| `C114_unstable` | The critically damped gains of the exercise are stable only together with the time step: as soon as `c*dt*sqrt(kp) >= 1` (`c` the factor of `C114_unique`, 1 without regularisation) or `dt*sqrt(kp) >= 4` there are states from which the joints do not come to rest at a constant reference, and no function of tsid checks this. |

## 7. Testing the theorems

In a scratch copy, definitions of the model are edited as a realistic bug would, and the project is rebuilt.
`seeded/LOG.jsonl` has one line per attempt: the definition, the edit, the claim it breaks, the theorems that failed, and
the theorems that were tightened because none failed.
