{"id": "C01", "title": "Decoded solution satisfies the full equations of motion", "statement": "After any history of API calls that ends with computeProblemData, the level-0 entry \"base-dynamics\" of the returned HQP data is satisfied by a vector x if and only if the accelerations, contact forces and actuator forces decoded from x satisfy the complete rigid-body dynamics M*dv + nle = [0; tau] + sum over contacts (J_c^T T_c f_c) + sum of measured-force torques, all nv rows included.", "quantifier": "all registration histories (tasks, contacts, measured forces, transitions), all robot data, all solution vectors x of size nVar", "why_tests_cant": "Tests look at one robot and a handful of contact configurations; the claim ranges over every add/remove history, every column layout and every real vector x.", "anchors": ["src/formulations/inverse-dynamics-formulation-acc-force.cpp: computeProblemData (268-311)", "src/formulations/inverse-dynamics-formulation-acc-force.cpp: decodeSolution (403-417)"]}
{"id": "C02", "title": "Actuation tasks constrain the torque that is decoded", "statement": "After computeProblemData, the HQP entry of a registered actuation task (equality, inequality or bound) is satisfied by x if and only if the actuator forces decoded from x satisfy the constraint returned by the task itself.", "quantifier": "all histories, all actuation constraints with na columns, all x", "why_tests_cant": "The torques are not problem variables; a sign or block mistake only shows for particular contact layouts and states, of which there are infinitely many.", "anchors": ["src/formulations/inverse-dynamics-formulation-acc-force.cpp: computeProblemData (373-396)", "src/formulations/inverse-dynamics-formulation-acc-force.cpp: decodeSolution (403-417)"]}
{"id": "C03", "title": "Motion tasks constrain exactly the accelerations", "statement": "After computeProblemData, the HQP entry of a registered motion task is satisfied by x if and only if the acceleration part of x satisfies the task's own constraint, whatever the contact forces are and whatever was computed in earlier control cycles.", "quantifier": "all histories, all motion-task constraints (equality, inequality, bound), all x", "why_tests_cant": "Left-over columns from an earlier contact layout would only show after particular add/remove/compute interleavings.", "anchors": ["src/formulations/inverse-dynamics-formulation-acc-force.cpp: computeProblemData (315-329)", "src/formulations/inverse-dynamics-formulation-acc-force.cpp: resizeHqpData (51-59)"]}
{"id": "C04", "title": "Contact entries constrain exactly the forces of that contact", "statement": "After computeProblemData, for every registered contact: the force-constraint entry is satisfied by x iff the force that getContactForces(name) extracts from x satisfies the contact's own force constraint; the regularisation entry has the residual of the contact's own regularisation task on that same force; the motion entry is satisfied iff the accelerations satisfy the contact's own motion constraint.", "quantifier": "all histories of contact additions, removals and re-indexings, all contacts in the stack, all x", "why_tests_cant": "Column offsets depend on the whole history of contact additions and removals.", "anchors": ["src/formulations/inverse-dynamics-formulation-acc-force.cpp: computeProblemData (270-292)", "src/formulations/inverse-dynamics-formulation-acc-force.cpp: removeRigidContact (546-563)", "src/formulations/inverse-dynamics-formulation-acc-force.cpp: addRigidContact (165-200)", "src/formulations/inverse-dynamics-formulation-acc-force.cpp: getContactForces (437-463)"]}
{"id": "C05", "title": "Force tasks constrain the forces of their associated contact", "statement": "After computeProblemData, the HQP entry of a registered contact-force task involves only the forces of the contact it is currently associated with (or all the contact forces when it is associated with none) and is satisfied by x iff those forces satisfy the task's own constraint.", "quantifier": "all histories, including re-association of a force task with another contact between control cycles, all x", "why_tests_cant": "Requires reasoning over the interleaving of setAssociatedContact, contact changes and computeProblemData.", "anchors": ["src/formulations/inverse-dynamics-formulation-acc-force.cpp: computeProblemData (331-371)", "src/tasks/task-contact-force-equality.cpp: setAssociatedContact, getAssociatedContactName"]}
{"id": "C06", "title": "Variable layout is consistent in every reachable state", "statement": "In every reachable state nVar() equals nv plus the sum of the force sizes of the registered contacts, every constraint in the HQP data has exactly nVar() columns, and the force slices of the registered contacts tile the contact-force vector contiguously, without gap or overlap, in registration order.", "quantifier": "all finite histories of formulation API calls from construction", "why_tests_cant": "An inductive invariant over unbounded histories.", "anchors": ["src/formulations/inverse-dynamics-formulation-acc-force.cpp: addRigidContact", "src/formulations/inverse-dynamics-formulation-acc-force.cpp: removeRigidContact", "src/formulations/inverse-dynamics-formulation-acc-force.cpp: resizeHqpData", "src/formulations/inverse-dynamics-formulation-acc-force.cpp: addTask", "src/formulations/inverse-dynamics-formulation-acc-force.cpp: nVar"]}
{"id": "C07", "title": "nEq and nIn count the level-0 rows", "statement": "In every reachable state nEq() equals the number of rows of the equality constraints at priority level 0 and nIn() the number of rows of the inequality constraints at priority level 0 of the HQP data.", "quantifier": "all finite histories with distinct names", "why_tests_cant": "The counters are updated incrementally by eight different methods; real-time solvers size their buffers from them.", "anchors": ["src/formulations/inverse-dynamics-formulation-acc-force.cpp: addTask", "src/formulations/inverse-dynamics-formulation-acc-force.cpp: addActuationTask", "src/formulations/inverse-dynamics-formulation-acc-force.cpp: removeTask (465-506)", "src/formulations/inverse-dynamics-formulation-acc-force.cpp: addRigidContact", "src/formulations/inverse-dynamics-formulation-acc-force.cpp: removeRigidContact", "src/formulations/inverse-dynamics-formulation-acc-force.cpp: nEq", "src/formulations/inverse-dynamics-formulation-acc-force.cpp: nIn"]}
{"id": "C08", "title": "Tasks can be added at any priority level", "statement": "addMotionTask, addForceTask, addActuationTask and addRigidContact store the new constraint at the requested priority level, growing the hierarchy when necessary, without undefined behaviour.", "quantifier": "all priority levels, all reachable states", "why_tests_cant": "The out-of-bounds write for levels at or above the current number of levels is undefined behaviour; a test may pass by accident.", "anchors": ["src/formulations/inverse-dynamics-formulation-acc-force.cpp: addTask (61-83)", "src/formulations/inverse-dynamics-formulation-acc-force.cpp: addActuationTask (128-145)", "src/formulations/inverse-dynamics-formulation-acc-force.cpp: addRigidContact (177)"]}
{"id": "C09", "title": "Rejected additions leave the formulation untouched", "statement": "add*Task throws exactly when the weight or the transition duration is negative, and a call that throws has no observable effect: HQP data, counters, task lists and decoded solution are unchanged.", "quantifier": "all states, all weights and durations", "why_tests_cant": "Strong exception safety is a statement about all states and inputs.", "anchors": ["src/formulations/inverse-dynamics-formulation-acc-force.cpp: addMotionTask (85-99)", "src/formulations/inverse-dynamics-formulation-acc-force.cpp: addForceTask (101-114)", "src/formulations/inverse-dynamics-formulation-acc-force.cpp: addActuationTask (116-148)"]}
{"id": "C10", "title": "Removing what was just added restores the problem", "statement": "From any reachable state, adding a task or contact with fresh names and removing it again restores the list of HQP entries with their order, weights, kinds and sizes, the counters nVar/nEq/nIn and the slices of all other contacts.", "quantifier": "all reachable states, all fresh tasks and contacts, priority levels 0 and 1", "why_tests_cant": "Round-trip law over an unbounded state space.", "anchors": ["src/formulations/inverse-dynamics-formulation-acc-force.cpp: addMotionTask", "src/formulations/inverse-dynamics-formulation-acc-force.cpp: removeTask", "src/formulations/inverse-dynamics-formulation-acc-force.cpp: addRigidContact", "src/formulations/inverse-dynamics-formulation-acc-force.cpp: removeRigidContact"]}
{"id": "C11", "title": "Removal affects only the named object", "statement": "removeTask(name) and removeRigidContact(name) return true exactly when the task or contact is registered, and then the HQP entries, weights and registrations of all other tasks, contacts and the base dynamics are preserved.", "quantifier": "all reachable states, all names", "why_tests_cant": "Objects are found by name in several parallel containers; coherence of the containers is an invariant over histories.", "anchors": ["src/formulations/inverse-dynamics-formulation-acc-force.cpp: removeTask", "src/formulations/inverse-dynamics-formulation-acc-force.cpp: removeRigidContact", "src/formulations/inverse-dynamics-formulation-acc-force.cpp: removeFromHqpData", "src/formulations/inverse-dynamics-formulation-acc-force.cpp: getTaskPriority"]}
{"id": "C12", "title": "updateTaskWeight changes one weight", "statement": "updateTaskWeight(name,w) returns true iff an entry of that name exists at a priority level of at least 1; it then changes the weight of exactly that entry to w, and otherwise changes nothing.", "quantifier": "all states, names and weights", "why_tests_cant": "Frame condition over all states.", "anchors": ["src/formulations/inverse-dynamics-formulation-acc-force.cpp: updateTaskWeight (150-163)"]}
{"id": "C13", "title": "updateRigidContactWeights updates what it reports", "statement": "updateRigidContactWeights(name, wf, wm) sets the regularisation weight when wf is non-negative and the motion weight when wm is non-negative, changes no other weight, and returns true iff everything that was requested was done.", "quantifier": "all reachable states, all names and weights, motion priority 0 or 1", "why_tests_cant": "The early-return logic depends on the order of the entries in the level.", "anchors": ["src/formulations/inverse-dynamics-formulation-acc-force.cpp: updateRigidContactWeights (209-233)"]}
{"id": "C14", "title": "Contact-breaking transition interpolates the normal-force bound", "statement": "The break of a contact begins with the normal force that the contact has in the last solution. While a contact break of positive duration is pending, every computeProblemData(t) with t between the start and the end of the transition sets the contact's maximum normal force to the linear interpolation between its value at the start and min+1e-3; the value stays between these two, never falls below the minimum normal force, and hence the call never throws.", "quantifier": "all durations, all times in the window, all forces at the start that are at least the minimum normal force", "why_tests_cant": "Continuous time parameter and arbitrary start forces.", "anchors": ["src/formulations/inverse-dynamics-formulation-acc-force.cpp: computeProblemData (247-256)", "src/formulations/inverse-dynamics-formulation-acc-force.cpp: removeRigidContact (510-530)", "src/contacts/contact-6d.cpp: setMaxNormalForce", "src/contacts/contact-point.cpp: setMaxNormalForce"]}
{"id": "C15", "title": "A contact whose breaking transition has ended is out of the problem", "statement": "When computeProblemData(t) is called with t past the end of a pending contact break, the returned HQP data no longer contains any entry of that contact.", "quantifier": "any number of simultaneously pending transitions, all times", "why_tests_cant": "Several transitions may expire in the same control cycle; the number is unbounded.", "anchors": ["src/formulations/inverse-dynamics-formulation-acc-force.cpp: computeProblemData (247-266)"]}
{"id": "C16", "title": "A contact stays until its own removal", "statement": "A contact registered after an earlier contact of the same name was removed stays in the problem until the user removes it.", "quantifier": "all histories with pending transitions", "why_tests_cant": "Needs histories that remove, re-add and then advance time past a stale transition.", "anchors": ["src/formulations/inverse-dynamics-formulation-acc-force.cpp: computeProblemData (247-266)", "src/formulations/inverse-dynamics-formulation-acc-force.cpp: removeRigidContact (532-563)"]}
{"id": "C17", "title": "Getters decode the solution they are given", "statement": "After computeProblemData, getAccelerations, getContactForces and getActuatorForces return dv = first nv entries, f = last entries and the inverse-dynamics torque of the HQPOutput passed to them, and repeated calls in any order return mutually consistent values.", "quantifier": "all sequences of getter calls with arbitrary HQPOutput arguments", "why_tests_cant": "A cached result is shared by all getters; the claim is about all call sequences.", "anchors": ["src/formulations/inverse-dynamics-formulation-acc-force.cpp: decodeSolution (403-417)", "src/formulations/inverse-dynamics-formulation-acc-force.cpp: getActuatorForces", "src/formulations/inverse-dynamics-formulation-acc-force.cpp: getAccelerations", "src/formulations/inverse-dynamics-formulation-acc-force.cpp: getContactForces"]}
{"id": "C18", "title": "Per-contact forces partition the force vector", "statement": "For every registered contact getContactForces(name, sol) returns n_force values; concatenating them in registration order gives getContactForces(sol); for a name that is not registered the result is empty (and the three-argument overload returns false and leaves its argument alone).", "quantifier": "all reachable states with distinct contact names, all solutions", "why_tests_cant": "Depends on indices after arbitrary add/remove histories.", "anchors": ["src/formulations/inverse-dynamics-formulation-acc-force.cpp: getContactForces (431-463)"]}
{"id": "C19", "title": "Registration order of tasks is irrelevant", "statement": "Registering two tasks in either order yields HQP levels that are permutations of each other, hence the same set of feasible points and the same cost.", "quantifier": "all reachable states, all pairs of additions", "why_tests_cant": "Commutation law over all states.", "anchors": ["src/formulations/inverse-dynamics-formulation-acc-force.cpp: addMotionTask", "src/formulations/inverse-dynamics-formulation-acc-force.cpp: addForceTask", "src/formulations/inverse-dynamics-formulation-acc-force.cpp: addActuationTask", "src/solvers/solver-HQP-eiquadprog.cpp: retrieveQPData"]}
{"id": "C20", "title": "External force is the sum over the registered measured forces", "statement": "The bias force used in base dynamics, actuation tasks and decoded torques is nle minus the sum of the joint torques of exactly the measured forces currently registered; it does not depend on their order nor on earlier computeProblemData calls; removeMeasuredForce returns true iff the name is registered and then removes one such force.", "quantifier": "all histories of addMeasuredForce/removeMeasuredForce/computeProblemData", "why_tests_cant": "Accumulation over control cycles would only show after particular histories.", "anchors": ["src/formulations/inverse-dynamics-formulation-acc-force.cpp: computeProblemData (294-298)", "src/formulations/inverse-dynamics-formulation-acc-force.cpp: addMeasuredForce", "src/formulations/inverse-dynamics-formulation-acc-force.cpp: removeMeasuredForce"]}
{"id": "C21", "title": "computeProblemData is memoryless", "statement": "The HQP data returned by computeProblemData depends only on what is registered and on the data of the current cycle: two formulations with the same registrations but different past control cycles return the same problem, and repeating the call with the same inputs changes nothing.", "quantifier": "all pairs of reachable states with equal registrations, all current-cycle data", "why_tests_cant": "Quantifies over pairs of histories (a hyperproperty).", "anchors": ["src/formulations/inverse-dynamics-formulation-acc-force.cpp: computeProblemData (268-396)", "src/formulations/inverse-dynamics-formulation-acc-force.cpp: resizeHqpData"]}
{"id": "C22", "title": "Friction constraint of a 6d contact means what it says", "statement": "A 12-vector of corner forces satisfies the force constraint of a Contact6d iff for each of the four points the force components along the two tangents are at most mu times the component along the normal in absolute value (up to the built-in -1e10 one-sided limit), and the sum of the normal components lies in [fMin,fMax]; the two tangents and a unit normal are orthonormal for every unit normal.", "quantifier": "all unit normals, all mu, fMin, fMax, all force vectors", "why_tests_cant": "Ranges over a continuum of normals and forces, including the switch of reference axis near the X direction.", "anchors": ["src/contacts/contact-6d.cpp: updateForceInequalityConstraints", "src/contacts/contact-point.cpp: updateForceInequalityConstraints"]}
{"id": "C23", "title": "Accepted contact forces respect Coulomb friction", "statement": "A contact force accepted by the force constraint of a contact with friction coefficient mu lies in the Coulomb friction cone of coefficient mu, and every force of that cone with admissible normal component is accepted.", "quantifier": "all unit normals, mu, forces", "why_tests_cant": "A statement about a continuum of forces; the corner directions are measure zero.", "anchors": ["src/contacts/contact-point.cpp: updateForceInequalityConstraints", "src/contacts/contact-6d.cpp: updateForceInequalityConstraints"]}
{"id": "C24", "title": "Contact setters keep the force constraint coherent", "statement": "For every history of setContactNormal, setFrictionCoefficient, setMinNormalForce, setMaxNormalForce on a point or 6d contact, the force constraint equals the one a new contact with the current parameters would have; a call rejected with an exception changes nothing; and fMin <= fMax is preserved once it holds.", "quantifier": "all histories of setter calls with arbitrary arguments", "why_tests_cant": "Invariant over unbounded histories.", "anchors": ["src/contacts/contact-6d.cpp: setContactNormal, setFrictionCoefficient, setMinNormalForce, setMaxNormalForce", "src/contacts/contact-point.cpp: same"]}
{"id": "C25", "title": "Force generator maps corner forces to the contact wrench", "statement": "For a Contact6d the generalized force J^T T f contributed by the corner forces equals the sum over the four points of the transposed Jacobian of that point times its force, for every Jacobian and every choice of contact points.", "quantifier": "all contact points, Jacobians, forces", "why_tests_cant": "An identity over a continuum of inputs.", "anchors": ["src/contacts/contact-6d.cpp: updateForceGeneratorMatrix", "src/formulations/inverse-dynamics-formulation-acc-force.cpp: computeProblemData (278-280)"]}
{"id": "C26", "title": "Force regularisation penalises the deviation of the contact wrench", "statement": "For every history of setter calls on a Contact6d the regularisation task has residual A*(T f - f_ref), with T the current force generator, f_ref the last force reference and A the last weight matrix.", "quantifier": "all histories of setContactPoints, setForceReference, setRegularizationTaskWeightVector", "why_tests_cant": "Invariant over histories of setters.", "anchors": ["src/contacts/contact-6d.cpp: setContactPoints, updateForceRegularizationTask, setForceReference, setRegularizationTaskWeightVector"]}
{"id": "C27", "title": "Point-contact gains act on the position only", "statement": "The motion constraint of a ContactPoint whose gains were set with 3-d vectors depends only on these three values, not on the (uninitialised) angular gains.", "quantifier": "all values of the uninitialised memory, all kinematic data", "why_tests_cant": "Uninitialised memory takes arbitrary values; a test sees one of them.", "anchors": ["src/contacts/contact-point.cpp: Kp, Kd, constructor", "src/tasks/task-se3-equality.cpp: compute"]}
{"id": "C28", "title": "Joint bounds keep velocity and acceleration in range at the next step", "statement": "An acceleration satisfies the constraint of TaskJointBounds iff, for every actuated joint, it is within the acceleration bounds and the velocity after one time step is within the velocity bounds; the free-flyer rows are unconstrained up to 1e10.", "quantifier": "all dt > 0, velocities, bounds, accelerations", "why_tests_cant": "Continuum of states.", "anchors": ["src/tasks/task-joint-bounds.cpp: compute, constructor, setTimeStep, setVelocityBounds, setAccelerationBounds"]}
{"id": "C29", "title": "Position-derived acceleration bounds keep the whole step inside the limits", "statement": "If a joint is inside its position limits, not moving outwards at a limit, and its constant acceleration lies between the position-derived bounds of TaskJointPosVelAccBounds, then the position stays inside the limits at every instant of the prediction horizon.", "quantifier": "all joint states inside the limits, all accelerations in the bounds, all instants of the horizon", "why_tests_cant": "Continuous-time statement over a continuum of states.", "anchors": ["src/tasks/task-joint-posVelAcc-bounds.cpp: computeAccLimitsFromPosLimits (266-309)"]}
{"id": "C30", "title": "Viability bounds preserve the ability to stop", "statement": "If the acceleration respects the viability bounds of TaskJointPosVelAccBounds then after the step the joint either does not move towards a limit or can still be stopped before it with the maximum deceleration.", "quantifier": "all joint states, all accelerations in the bounds, all dt > 0, ddqMax >= 0", "why_tests_cant": "Continuum of states; square-root formula with case distinctions.", "anchors": ["src/tasks/task-joint-posVelAcc-bounds.cpp: computeAccLimitsFromViability (310-354)"]}
{"id": "C31", "title": "Final acceleration bounds are never contradictory", "statement": "The bounds output by computeAccLimits satisfy lower <= upper for every joint and state; when the imposed limits are compatible they are exactly the intersection of all of them.", "quantifier": "all values of the individual bounds", "why_tests_cant": "Case analysis over all orderings of eight reals.", "anchors": ["src/tasks/task-joint-posVelAcc-bounds.cpp: computeAccLimits (356-434)"]}
{"id": "C32", "title": "Position limits win conflicts between acceleration limits", "statement": "When the imposed limits conflict, the bounds output by computeAccLimits still respect the position-derived bounds whenever these are compatible with each other.", "quantifier": "all values of the individual bounds", "why_tests_cant": "The violating orderings of the eight bounds are rare.", "anchors": ["src/tasks/task-joint-posVelAcc-bounds.cpp: computeAccLimits (408-433)"]}
{"id": "C33", "title": "Changing the time step re-derives the acceleration bounds", "statement": "After setTimeStep(dt) the task TaskJointPosVelAccBounds computes the same bounds as a task constructed with dt.", "quantifier": "all pairs of time steps, all joint states", "why_tests_cant": "Cached constants make the effect visible only for particular sequences of calls.", "anchors": ["src/tasks/task-joint-posVelAcc-bounds.cpp: constructor, setTimeStep"]}
{"id": "C34", "title": "A limit type that is switched off no longer restricts the acceleration", "statement": "After setImposeBounds, the bounds computed by TaskJointPosVelAccBounds do not depend on any limit type that is switched off, whatever was computed before.", "quantifier": "all histories of setImposeBounds and compute", "why_tests_cant": "Stale per-limit buffers show only for particular histories.", "anchors": ["src/tasks/task-joint-posVelAcc-bounds.cpp: setImposeBounds, computeAccLimits (366-404)"]}
{"id": "C35", "title": "Masked joint-bound constraint is well formed", "statement": "For every admissible mask the constraint returned by TaskJointPosVelAccBounds::compute has as many bound entries as matrix rows, and bounds exactly the joints selected by the mask.", "quantifier": "all 0/1 masks of size na", "why_tests_cant": "2^na masks.", "anchors": ["src/tasks/task-joint-posVelAcc-bounds.cpp: setMask, compute, dim"]}
{"id": "C36", "title": "Posture task imposes the PD law on the selected joints", "statement": "For every admissible mask, accelerations satisfy the constraint of TaskJointPosture iff for each selected joint the acceleration equals -Kp*(position error) - Kd*(velocity error) + reference acceleration; unselected joints are free. Inadmissible masks are rejected with an exception.", "quantifier": "all masks, gains, references, states, accelerations; all sequences of setMask calls", "why_tests_cant": "2^na masks and a continuum of values.", "anchors": ["src/tasks/task-joint-posture.cpp: setMask, compute"]}
{"id": "C37", "title": "Cartesian equality tasks are satisfied iff the masked acceleration is the desired one", "statement": "For TaskSE3Equality, TaskTwoFramesEquality, TaskComEquality and TaskAMEquality and every 0/1 mask, dv satisfies the task constraint iff on every selected axis J*dv + drift equals the desired acceleration.", "quantifier": "all masks, Jacobians, drifts, accelerations", "why_tests_cant": "2^6 masks times a continuum.", "anchors": ["src/tasks/task-se3-equality.cpp: compute", "src/tasks/task-two-frames-equality.cpp: compute", "src/tasks/task-com-equality.cpp: compute", "src/tasks/task-angular-momentum-equality.cpp: compute"]}
{"id": "C38", "title": "getAcceleration reports the achieved task acceleration", "statement": "If dv satisfies the task constraint then getAcceleration(dv) (getdMomentum(dv)) equals the desired acceleration on the selected axes.", "quantifier": "all tasks, masks, drifts, dv", "why_tests_cant": "The error vanishes when the drift is zero, which is the case in static tests.", "anchors": ["src/tasks/task-se3-equality.cpp: getAcceleration", "src/tasks/task-com-equality.cpp: getAcceleration", "src/tasks/task-angular-momentum-equality.cpp: getdMomentum"]}
{"id": "C39", "title": "Local and world frame SE3 tasks are equivalent for isotropic gains", "statement": "With the full mask and gains that are equal along the three translational and along the three rotational axes, TaskSE3Equality in the local frame and in the world-oriented frame have the same set of solutions.", "quantifier": "all poses, references, velocities, Jacobians", "why_tests_cant": "Continuum of rotations.", "anchors": ["src/tasks/task-se3-equality.cpp: compute (local/world branches)", "src/math/utils.cpp: errorInSE3"]}
{"id": "C40", "title": "CoP task places the centre of pressure at the reference", "statement": "If contact forces satisfy the constraint of TaskCopEquality and the total normal force is non-zero then the force-weighted mean of the contact points is the reference point, for any number of contacts; conversely such forces satisfy it.", "quantifier": "any number of contacts and points, all forces", "why_tests_cant": "Unbounded number of contacts, continuum of forces.", "anchors": ["src/tasks/task-cop-equality.cpp: compute"]}
{"id": "C41", "title": "Force-tracking task regulates with a bounded integral", "statement": "The force reference imposed by TaskContactForceEquality is reference + Kp*error + Kd*error rate + Ki*integral, and for every history of cycles the leaky integral stays within the bound max(|I0|, E/leak) whenever the errors are bounded by E and 0 < leak*dt <= 1.", "quantifier": "all finite histories of errors, all gains", "why_tests_cant": "Unbounded histories.", "anchors": ["src/tasks/task-contact-force-equality.cpp: compute"]}
{"id": "C42", "title": "Capture-point task keeps the next capture point in the support region", "statement": "dv satisfies the constraint of TaskCapturePointInequality iff the capture point of the centre of mass after one time step of constant acceleration lies within the support limits reduced by the safety margin.", "quantifier": "all states with positive height, gravity and dt, all limits and margins, all dv", "why_tests_cant": "Continuum of states, square root.", "anchors": ["src/tasks/task-capture-point-inequality.cpp: compute"]}
{"id": "C43", "title": "Actuation tasks apply mask and weights to the right joints", "statement": "For every sequence of mask, reference and weight calls, TaskActuationEquality is satisfied by tau iff w_i*tau_i = w_i*ref_i for each selected joint, and TaskActuationBounds iff the selected joints are within their bounds.", "quantifier": "all call sequences, masks, torques", "why_tests_cant": "Unbounded call sequences, 2^na masks.", "anchors": ["src/tasks/task-actuation-equality.cpp", "src/tasks/task-actuation-bounds.cpp"]}
{"id": "C44", "title": "The QP given to eiquadprog has the feasible set of level 0", "statement": "For SolverHQuadProg and SolverHQuadProgFast, x satisfies CE x + ce0 = 0 and CI x + ci0 >= 0 of the assembled QP iff x satisfies every constraint of priority level 0 (equality, inequality and bound).", "quantifier": "any number of constraints of any kinds and sizes, all x", "why_tests_cant": "Unbounded number of constraints; row offsets.", "anchors": ["src/solvers/solver-HQP-eiquadprog.cpp: retrieveQPData", "src/solvers/solver-HQP-eiquadprog-fast.cpp: retrieveQPData"]}
{"id": "C45", "title": "The QP cost is the weighted least-squares cost of level 1", "statement": "For every solver back-end the quadratic cost assembled from level 1 equals, up to a constant independent of x, half the weighted sum of the squared residuals plus half the Hessian regularisation times |x|^2; with non-negative weights the Hessian is positive definite and the minimiser over the feasible set is unique.", "quantifier": "any number of level-1 constraints, weights, x", "why_tests_cant": "Unbounded sums over reals.", "anchors": ["src/solvers/solver-HQP-eiquadprog.cpp: retrieveQPData", "src/solvers/solver-HQP-eiquadprog-fast.cpp: retrieveQPData", "src/solvers/solver-HQP-qpmad.cpp: retrieveQPData", "src/solvers/solver-proxqp.cpp: retrieveQPData", "src/solvers/solver-osqp.cpp: retrieveQPData"]}
{"id": "C46", "title": "ProxQP and OSQP receive the feasible set of level 0", "statement": "The constraint data handed to ProxQP and OSQP in their own conventions is satisfied by x iff x satisfies every constraint of priority level 0.", "quantifier": "any number of constraints of any kinds and sizes, all x", "why_tests_cant": "Unbounded number of constraints; row offsets.", "anchors": ["src/solvers/solver-proxqp.cpp: retrieveQPData", "src/solvers/solver-osqp.cpp: retrieveQPData"]}
{"id": "C47", "title": "qpmad receives the feasible set of level 0", "statement": "The constraint data handed to qpmad is satisfied by x iff x satisfies every constraint of priority level 0, including simple bounds.", "quantifier": "any number of constraints of any kinds and sizes, all x", "why_tests_cant": "Only problems with simple bounds and negative lower limits show the difference.", "anchors": ["src/solvers/solver-HQP-qpmad.cpp: retrieveQPData, resize"]}
{"id": "C48", "title": "All back-ends solve the same problem", "statement": "For a problem without simple bounds and equal Hessian regularisation, points optimal for the QP of one back-end are exactly the points optimal for the QP of any other.", "quantifier": "all two-level problems", "why_tests_cant": "Relates all pairs of back-ends on all problems.", "anchors": ["src/solvers/solver-HQP-eiquadprog.cpp", "src/solvers/solver-HQP-qpmad.cpp", "src/solvers/solver-proxqp.cpp", "src/solvers/solver-osqp.cpp"]}
{"id": "C49", "title": "Unsupported hierarchies are rejected", "statement": "Every back-end rejects with an exception a problem with more than two levels or with a non-equality constraint at level 1, and accepts every other well-formed two-level problem.", "quantifier": "all problems", "why_tests_cant": "All problems.", "anchors": ["src/solvers/solver-HQP-eiquadprog.cpp: retrieveQPData", "src/solvers/solver-proxqp.cpp: retrieveQPData", "src/solvers/solver-osqp.cpp: retrieveQPData"]}
{"id": "C50", "title": "OPTIMAL is reported only for solved problems", "statement": "The status returned by solve is HQP_STATUS_OPTIMAL only if the back-end reported that this very problem was solved, for every sequence of solve calls; a failing status says how this very call failed.", "quantifier": "all sequences of back-end return codes", "why_tests_cant": "Rare return codes and their interleaving with earlier successes.", "anchors": ["src/solvers/solver-HQP-eiquadprog.cpp: solve", "src/solvers/solver-HQP-eiquadprog-fast.cpp: solve", "src/solvers/solver-proxqp.cpp: solve", "src/solvers/solver-osqp.cpp: solve", "src/solvers/solver-HQP-qpmad.cpp: solve"]}
{"id": "C51", "title": "Solver settings survive problem resizing", "statement": "For every sequence of setter calls and problem-size changes, the settings in force in the back-end are the last values accepted by the setters and getMaximumIterations reports the value in force.", "quantifier": "all sequences of setters and resizes", "why_tests_cant": "Resizing re-creates the back-end; unbounded histories.", "anchors": ["src/solvers/solver-proxqp.cpp: resize, set*", "src/solvers/solver-osqp.cpp: resize, set*", "src/solvers/solver-HQP-base.cpp: setMaximumIterations, setMaximumTime"]}
{"id": "C52", "title": "Rotor inertia is added exactly once", "statement": "For every history of rotor_inertias and gear_ratios calls the mass matrix returned by the robot wrapper equals the rigid-body inertia plus gear^2*rotor on the diagonal of the actuated joints; it is symmetric if the rigid-body inertia is, and repeated calls return the same matrix.", "quantifier": "all histories of setters and mass() calls", "why_tests_cant": "Invariant over histories.", "anchors": ["src/robots/robot-wrapper.cpp: rotor_inertias, gear_ratios, updateMd, mass"]}
{"id": "C53", "title": "World-oriented frame quantities are pure rotations", "statement": "frameVelocityWorldOriented, frameAccelerationWorldOriented and frameClassicAccelerationWorldOriented return the local quantity with linear and angular parts rotated by the frame orientation.", "quantifier": "all poses and velocities, all contents of uninitialised memory", "why_tests_cant": "The result depends on uninitialised memory; a test may see zeros.", "anchors": ["src/robots/robot-wrapper.cpp: frameVelocityWorldOriented, frameAccelerationWorldOriented, frameClassicAccelerationWorldOriented"]}
{"id": "C54", "title": "SE3 and vector representations are inverse to each other", "statement": "vectorToSE3(SE3ToVector(M)) = M for every pose and SE3ToVector(vectorToSE3(v)) = v for every 12-vector; vectors of any other size are rejected with an exception. Hence the reference set on an SE3 task through a trajectory sample is the pose given to the trajectory.", "quantifier": "all poses, all vectors of all sizes", "why_tests_cant": "Round trip over a continuum.", "anchors": ["src/math/utils.cpp: SE3ToVector, vectorToSE3", "src/trajectories/trajectory-se3.cpp", "src/tasks/task-se3-equality.cpp: setReference"]}
{"id": "C55", "title": "Pose error vanishes exactly at the reference", "statement": "errorInSE3(M, Mdes) is zero iff M = Mdes, and rotating its linear part to the world gives the difference of the positions.", "quantifier": "all pairs of poses", "why_tests_cant": "Continuum of poses.", "anchors": ["src/math/utils.cpp: errorInSE3"]}
{"id": "C56", "title": "pseudoInverse is the Moore-Penrose inverse", "statement": "Given a singular value decomposition whose non-zero singular values exceed the positive tolerance, pseudoInverse returns the matrix that satisfies the four Penrose conditions.", "quantifier": "all sizes, all matrices with a given SVD", "why_tests_cant": "All sizes and matrices.", "anchors": ["src/math/utils.cpp: pseudoInverse"]}
{"id": "C57", "title": "Damped solutions minimise the regularised residual", "statement": "solveWithDampingFromSvd and dampedPseudoInverse yield the minimiser of |A x - b|^2 + damping^2 |x|^2 for every b and every non-zero damping.", "quantifier": "all sizes, matrices, right-hand sides, dampings", "why_tests_cant": "Optimality against a continuum of competitors.", "anchors": ["src/math/utils.cpp: solveWithDampingFromSvd, dampedPseudoInverse"]}
{"id": "C58", "title": "Matrix files round-trip", "statement": "readMatrixFromFile after writeMatrixToFile returns the same matrix, and readMatrixFromFile returns true only if the file contains a complete matrix.", "quantifier": "all matrices of all sizes, all byte contents of the file including truncation at every byte", "why_tests_cant": "Crash points: truncation at any byte; all sizes.", "anchors": ["include/tsid/math/utils.hpp: writeMatrixToFile, readMatrixFromFile"]}
{"id": "C59", "title": "Non-finite values are detected", "statement": "isFinite(x) is true iff no entry is NaN or infinite, and is_nan(x) is true iff some entry is NaN.", "quantifier": "all matrices of floating-point values including NaN and infinities", "why_tests_cant": "All positions and kinds of special values.", "anchors": ["include/tsid/math/utils.hpp: isFinite, is_nan"]}
{"id": "C60", "title": "Statistics aggregate exactly the stored values", "statement": "After any history of store/reset/turn_on/turn_off, the total, average, last, min and max reported for a quantity are those of the values stored for it while active since its last reset.", "quantifier": "all histories, all quantities, all values", "why_tests_cant": "Unbounded histories.", "anchors": ["src/utils/statistics.cpp: store, reset, get_*"]}
{"id": "C61", "title": "Stopwatch accounts elapsed time per activity", "statement": "For any history of start/pause/stop calls on any activities, the total time of an activity is the sum of its started-to-stopped (or paused) intervals, and last/min/max refer to completed laps.", "quantifier": "all histories and clock readings", "why_tests_cant": "Unbounded histories, all interleavings of activities.", "anchors": ["src/utils/stop-watch.cpp: start, stop, pause, reset"]}
{"id": "C62", "title": "Constant trajectories are constant", "statement": "Every sample of a constant trajectory, at any time and after any sequence of queries and reference changes, has the last reference as position and zero velocity and acceleration.", "quantifier": "all times and query sequences", "why_tests_cant": "All times, all histories.", "anchors": ["src/trajectories/trajectory-euclidian.cpp", "src/trajectories/trajectory-se3.cpp"]}
{"id": "C63", "title": "checkConstraint decides the constraint up to the tolerance", "statement": "checkConstraint(x,tol) is implied by exact satisfaction for every positive tolerance; it is monotone in the tolerance; and for inequalities and bounds it is true iff every row is violated by at most tol.", "quantifier": "all constraints, x, tol", "why_tests_cant": "Continuum of inputs.", "anchors": ["src/math/constraint-equality.cpp", "src/math/constraint-inequality.cpp", "src/math/constraint-bound.cpp"]}
{"id": "C64", "title": "Constraint objects stay dimensionally consistent", "statement": "For every constraint built by a non-throwing constructor and modified by setMatrix and resize, the number of bound (vector) entries equals the number of matrix rows; constructors and setMatrix throw on any size mismatch and leave the object unchanged.", "quantifier": "all constructor arguments, all histories of setters", "why_tests_cant": "Histories of setters; all sizes.", "anchors": ["src/math/constraint-base.cpp", "src/math/constraint-equality.cpp", "src/math/constraint-inequality.cpp", "src/math/constraint-bound.cpp"]}
{"id": "C65", "title": "Optimal solution of the assembled problem is physically consistent", "statement": "If the back-end returns a point feasible for the QP assembled from the HQP data of the formulation, then the decoded accelerations, forces and torques satisfy the equations of motion, all level-0 motion, force and actuation tasks, and the friction and normal-force limits of every registered contact.", "quantifier": "all registration histories, all cycle data, all feasible points", "why_tests_cant": "Composition of formulation and solver over all histories.", "anchors": ["src/formulations/inverse-dynamics-formulation-acc-force.cpp: computeProblemData", "src/formulations/inverse-dynamics-formulation-acc-force.cpp: decodeSolution", "src/solvers/solver-HQP-eiquadprog.cpp: retrieveQPData", "src/contacts/contact-6d.cpp"]}
{"id": "C66", "title": "Formulation uses the robot's current parameters", "statement": "Changing rotor inertias or gear ratios on the robot passed to the formulation changes the mass matrix used by the formulation from the next control cycle on.", "quantifier": "all histories interleaving robot setters and control cycles", "why_tests_cant": "The formulation may hold a copy; only histories with changes after construction show it.", "anchors": ["include/tsid/formulations/inverse-dynamics-formulation-base.hpp: m_robot", "src/formulations/inverse-dynamics-formulation-base.cpp: constructor"]}
{"id": "C67", "title": "The solver factory creates every declared solver type", "statement": "createNewSolver(type, name) returns a solver of the requested type for every enumerated type available in the build, and throws otherwise.", "quantifier": "all solver types, both factory overloads, all build configurations", "why_tests_cant": "All build configurations.", "anchors": ["src/solvers/solver-HQP-factory.cpp", "include/tsid/solvers/solver-HQP-factory.hxx"]}
{"id": "C68", "title": "Solver data depends only on the current problem", "statement": "The QP assembled by retrieveQPData for a two-level problem does not depend on the problems assembled earlier by the same solver object, whatever their sizes.", "quantifier": "all sequences of problems of varying sizes", "why_tests_cant": "Buffers are reused and only resized on size changes; unbounded histories.", "anchors": ["src/solvers/solver-HQP-eiquadprog.cpp: resize, retrieveQPData", "src/solvers/solver-HQP-eiquadprog-fast.cpp: resize, retrieveQPData", "src/solvers/solver-HQP-qpmad.cpp: resize, retrieveQPData", "src/solvers/solver-proxqp.cpp: resize, retrieveQPData", "src/solvers/solver-osqp.cpp: resize, retrieveQPData"]}
{"id": "C69", "title": "The HQP data are exactly those of the registered objects", "statement": "After any history, every level of the HQP data consists of exactly the entries (weight and constraint) of the tasks and contacts that are registered according to the sequence of successful calls, in order of registration, plus the base dynamics at level 0: no entry is lost, duplicated, left behind or shared between two objects.", "quantifier": "all finite histories of additions, removals, weight updates, contact transitions and computeProblemData calls with distinct names", "why_tests_cant": "Unbounded histories; the parallel containers (task levels, contact levels, HQP data) must stay coherent for all of them.", "anchors": ["src/formulations/inverse-dynamics-formulation-acc-force.cpp: addTask, addRigidContact, removeTask, removeRigidContact, removeFromHqpData, computeProblemData"]}
{"id": "C70", "title": "computeProblemData never writes out of range", "statement": "When every task and contact returns constraints of its declared size and the robot returns dynamics of its own size, computeProblemData performs no out-of-range block write, size mismatch or invalid cast, whatever was registered and removed before.", "quantifier": "all finite histories, all task outputs of the declared sizes", "why_tests_cant": "Unbounded histories; block offsets are recomputed incrementally on each addition and removal.", "anchors": ["src/formulations/inverse-dynamics-formulation-acc-force.cpp: computeProblemData, resizeHqpData, removeRigidContact"]}
{"id": "C71", "title": "Closed form of the returned problem", "statement": "After a successful computeProblemData, every entry of every level (name, weight, matrix, vector, bounds) and the number of variables are a closed-form function of the registered objects (in order of registration), the registered measured forces, the contact objects and the dynamics quantities of the current cycle; nothing else in the formulation's state contributes.", "quantifier": "all histories with distinct names and without re-association of force tasks, all cycle data of the declared sizes", "why_tests_cant": "The entries are preallocated and updated in place by blocks; that no stale column, row or bound survives has to hold for every history.", "anchors": ["src/formulations/inverse-dynamics-formulation-acc-force.cpp: computeProblemData, addTask, addRigidContact, resizeHqpData, removeRigidContact"]}
{"id": "C72", "title": "Task getters describe the last computed state", "statement": "After compute, the getters position, velocity, position_error, velocity_error, position_ref, velocity_ref and getDesiredAcceleration of a motion task report the state, the reference and the control law of that compute.", "quantifier": "all states, references, gains; all histories of calls", "why_tests_cant": "Tests read errors, not every getter; a member that is never assigned goes unnoticed.", "anchors": ["src/tasks/task-joint-posture.cpp: position, velocity, position_error, compute", "src/tasks/task-se3-equality.cpp", "src/tasks/task-com-equality.cpp", "src/tasks/task-angular-momentum-equality.cpp", "src/tasks/task-two-frames-equality.cpp"]}
{"id": "C73", "title": "Setters of motion tasks validate their arguments", "statement": "A setter of a Cartesian task called with an argument the task cannot use (wrong size of gains, mask or reference, mask entries other than 0 and 1) throws and leaves the task unchanged; hence no sequence of setter calls makes compute exhibit undefined behaviour.", "quantifier": "all arguments, all states, all histories of calls", "why_tests_cant": "Undefined behaviour need not show in a test; the set of unusable arguments and of histories is infinite.", "anchors": ["src/tasks/task-se3-equality.cpp: setMask, Kp, Kd, setReference", "src/tasks/task-two-frames-equality.cpp: setMask, Kp, Kd", "src/tasks/task-com-equality.cpp: setMask, setReference", "src/tasks/task-angular-momentum-equality.cpp: setReference"]}
{"id": "C74", "title": "Frame velocity and classical acceleration are those of the attached point", "statement": "For a frame rigidly attached to a joint, framePosition, frameVelocity, frameAcceleration and frameClassicAcceleration return the position, the velocity v + w x p, the spatial acceleration a + alpha x p and the classical acceleration a + alpha x p + w x (v + w x p) of the attached point, in the axes of the frame; they throw iff the frame does not exist.", "quantifier": "all placements whose rotation is a rotation matrix, all joint velocities and accelerations, all frame indices", "why_tests_cant": "Continuous domain; wrong signs or missing Coriolis terms vanish for frames at the joint origin or robots at rest, which tests use.", "anchors": ["src/robots/robot-wrapper.cpp: framePosition, frameVelocity, frameClassicAcceleration"]}
{"id": "C75", "title": "Null-space bases", "statement": "nullSpaceBasisFromDecomposition, pseudoInverse and dampedPseudoInverse write an orthonormal basis of the null space of the matrix whenever the singular values that are not zero exceed the tolerance.", "quantifier": "all sizes, all matrices with a given SVD, all tolerances and buffers", "why_tests_cant": "All sizes and ranks; that every null vector is a combination of the columns is a statement about a continuum.", "anchors": ["src/math/utils.cpp: nullSpaceBasisFromDecomposition, pseudoInverse, dampedPseudoInverse"]}
{"id": "C76", "title": "Measured forces enter as generalised forces", "statement": "computeJointTorques of a measured 6D wrench or 3D force returns the generalised force whose power, for every joint velocity, equals the power of the last set wrench (force) on the motion of the frame, expressed in the axes selected by useLocalFrame; joints that do not move the frame get no torque whatever earlier calls left in the buffers; local and world axes give the same torque for the same physical force.", "quantifier": "all numbers of joints, Jacobians, placements, wrenches and histories of setMeasuredWrench/Force, useLocalFrame and computeJointTorques", "why_tests_cant": "The buffer is reused and the Jacobian routine writes only some columns: all histories matter; power equality is for all velocities.", "anchors": ["src/contacts/measured-6d-wrench.cpp: computeJointTorques, setMeasuredContactForce, useLocalFrame", "src/contacts/measured-3d-force.cpp: computeJointTorques, setMeasuredContactForce, useLocalFrame"]}
{"id": "C77", "title": "isStateViable detects states that violate the limits", "statement": "After isStateViable the violation of a joint is positive only if the state is outside its position or velocity limits or cannot be stopped before a position limit (up to the tolerance), it is zero for viable states and non-zero for states that are not viable.", "quantifier": "all joints, limits, states and tolerances", "why_tests_cant": "Continuum of states; which of five tests wins depends on all of them.", "anchors": ["src/tasks/task-joint-posVelAcc-bounds.cpp: isStateViable (212-277)"]}
{"id": "C78", "title": "Joint limits hold in all cycles", "statement": "If all four kinds of limits are imposed on all joints, a joint whose speed limit is at least m*h and whose range is at least m*h^2 (h = twice the time step, m its acceleration limit) and that starts in a viable state stays inside its position and velocity limits and stoppable at every instant of every control cycle of length at most h whatever acceleration within the computed constraint is applied, and in every cycle that constraint can be satisfied.", "quantifier": "all numbers of cycles and joints, all limits, states, accelerations and cycle lengths", "why_tests_cant": "Invariance over unboundedly many cycles and a continuum of states and accelerations; recursive feasibility needs an existence proof in every viable state.", "anchors": ["src/tasks/task-joint-posVelAcc-bounds.cpp: compute, computeAccLimitsFromPosLimits, computeAccLimitsFromViability, computeAccLimits"]}
{"id": "C79", "title": "Tracking errors vanish", "statement": "If at all times the accelerations of the robot satisfy the constraint computed by an equality task (posture, centre of mass, angular momentum, position of a frame, point contact, two-frame contact) after any history of calls, with positive gains on a selected axis, the error with respect to the moving reference and its derivative decay exponentially with an explicit rate and tend to zero.", "quantifier": "all robots, references, histories, gains > 0, initial errors and times t >= 0", "why_tests_cant": "A statement about all solutions of a differential equation on an unbounded time interval.", "anchors": ["src/tasks/task-joint-posture.cpp: compute", "src/tasks/task-com-equality.cpp: compute", "src/tasks/task-angular-momentum-equality.cpp: compute", "src/tasks/task-se3-equality.cpp: compute", "src/contacts/contact-point.cpp: computeMotionTask", "src/contacts/contact-two-frame-positions.cpp: computeMotionTask"]}
{"id": "C80", "title": "The Python interface of the formulation keeps what holds in C++", "statement": "Every call of a Python program leaves the formulation as the C++ call of that name with its default arguments does, so every state it reaches is reachable through the C++ interface; the getters return the accelerations and forces the passed solution stands for; a contact added with a priority level goes to that level; checkContact says whether a contact of that name is registered; the problem returned by computeProblemData is the problem of that cycle and stays so until the next cycle, whatever tasks, contacts and weights are changed meanwhile.", "quantifier": "all robots, all sequences of Python calls, all names, weights, levels and solution vectors", "why_tests_cant": "The problem handed out shares its constraints with the formulation, so what it says later depends on every later call of an unbounded program.", "anchors": ["include/tsid/bindings/python/formulations/formulation.hpp: InvDynPythonVisitor", "include/tsid/bindings/python/solvers/HQPData.hpp: HQPDatas", "include/tsid/bindings/python/solvers/solver-HQP-eiquadprog.hpp: solver_helper"]}
{"id": "C81", "title": "Constraints handed to Python say what the originals say", "statement": "The constraint a Python program gets from compute, getConstraint, computeMotionTask, computeForceTask, … of a task or contact has the name and sizes of the original and is satisfied by the same vectors.", "quantifier": "all tasks and contacts, all well-formed constraints, for the joint limits all robots and histories of calls", "why_tests_cant": "Universally quantified over constraint contents; the deviation shows only for some robots.", "anchors": ["include/tsid/bindings/python/tasks/*.hpp: compute, getConstraint", "include/tsid/bindings/python/contacts/*.hpp: computeMotionTask, computeForceTask, computeForceRegularizationTask", "include/tsid/bindings/python/tasks/task-joint-posVelAcc-bounds.hpp: compute, getConstraint"]}
{"id": "C82", "title": "A copy of an OSQP solver can be used like the original", "statement": "A copy of a SolverOSQP, made at any time, treats every problem as the original would: the same data reach the external solver, without access out of bounds, with the settings last given to the original.", "quantifier": "all states and histories of the original, all problems, all contents of uninitialised memory", "why_tests_cant": "The outcome depends on the sizes of the last problem of the original and of the first of the copy; a test fixes both.", "anchors": ["src/solvers/solver-osqp.cpp: SolverOSQP(const SolverOSQP&), resize, retrieveQPData"]}
{"id": "C83", "title": "The sizes of a robot count the joints with motors", "statement": "Whatever constructor builds the RobotWrapper and whatever joint links the base to the world, na() is the number of velocities and nq_actuated() the number of configuration coordinates of the joints other than the base, is_fixed_base() tells whether there is a base joint, and the object is the one the other properties start from.", "quantifier": "all constructors, all numbers and sizes of joints, all base joints", "why_tests_cant": "Universal over models; tests use free-flyer and fixed bases only.", "anchors": ["src/robots/robot-wrapper.cpp: RobotWrapper (four constructors), init"]}
{"id": "C84", "title": "Weights of level 1 act as weights", "statement": "Calling updateTaskWeight before a control cycle changes nothing in the problem of that cycle but the weight of the entries of that name in level 1. If the weight is raised, the solution of the problem, by whatever back-end, has no larger error of that task (and the rest costs no less); its error exceeds the one at any feasible point by at most twice the cost of the rest there divided by the weight; if some feasible point achieves all tasks of level 1, the solution achieves each task of positive weight, up to the regularisation; and a common factor of all weights does not matter.", "quantifier": "all histories, cycles, tasks, weights, numbers of variables, feasible points and optimal points", "why_tests_cant": "Comparison of the optimal points of two problems for all data; a test compares two numerical solutions.", "anchors": ["src/formulations/inverse-dynamics-formulation-acc-force.cpp: updateTaskWeight, computeProblemData", "src/solvers/solver-HQP-eiquadprog.cpp, solver-HQP-eiquadprog-fast.cpp, solver-proxqp.cpp, solver-osqp.cpp: cost"]}
{"id": "C85", "title": "What solve returns is the solution of the problem it was given", "statement": "For every back-end and every history of problems and answers of the external solver: the vector that solve returns has one entry per variable of the last problem; after a success of an external solver that keeps its promises, the status is optimal, the vector is an optimal point of the hierarchical problem, getObjectiveValue is its cost at level 1 without the constant part, and multipliers, active set and iterations are those of this problem; after a failure nothing of an earlier problem is returned. In a control cycle, the output can always be decoded and after a success it is consistent and has the least cost.", "quantifier": "all histories, problems, sizes, answers of the external solvers and contents of uninitialised memory", "why_tests_cant": "Outputs are reused from call to call; what is left over from earlier problems of other sizes or from failed calls depends on the history.", "anchors": ["src/solvers/solver-HQP-eiquadprog.cpp, solver-HQP-eiquadprog-fast.cpp, solver-proxqp.cpp, solver-osqp.cpp, solver-HQP-qpmad.cpp: solve, resize, getObjectiveValue", "include/tsid/solvers/solver-HQP-eiquadprog-rt.hxx: solve", "include/tsid/solvers/solver-HQP-output.hpp"]}
{"id": "C86", "title": "The centre of pressure lies in the support polygon", "statement": "For a surface contact whose points lie in a plane orthogonal to its unit normal, with positive friction and a positive lower limit of the normal force, after any history of setters: every force vector accepted by its force constraint has exactly one centre of pressure on that plane, and it lies in the convex hull of the contact points; conversely every force of the Coulomb cone within the limits that acts at a point of the hull is transmitted by an accepted force vector. For several contacts on the same ground the common centre of pressure lies in the hull of all contact points, in particular for the forces decoded from a feasible point of the problem of any control cycle; hence a centre-of-pressure task with a reference outside the hull contradicts the contacts.", "quantifier": "all contacts, histories of setters, numbers of contacts, placements, force vectors and control cycles", "why_tests_cant": "The force vectors form a polyhedron of dimension 12 per contact; tests sample a few of them.", "anchors": ["src/contacts/contact-6d.cpp: updateForceInequalityConstraints, updateForceGeneratorMatrix", "src/contacts/contact-point.cpp: updateForceInequalityConstraints", "src/tasks/task-cop-equality.cpp: compute", "src/formulations/inverse-dynamics-formulation-acc-force.cpp: computeProblemData, getContactForces"]}
{"id": "C87", "title": "What the text of a program promises, the solution keeps", "statement": "Let a user program construct task objects, contacts and measured forces, call their setters in any order, register, re-weight and remove them, and run any number of control cycles. If the next computeProblemData returns, every vector that satisfies the first level of the problem satisfies: the equations of motion, with the Jacobians of the registered contacts and the torques of the measured forces as last set; the law of every registered task of priority 0, with the gains, references, masks and limits last set by calls in the text of the program and with the state of the robot in this cycle; the motion law of every registered contact of priority 0; the force limits of every registered contact. Earlier cycles have no influence, except through the integral of a force task.", "quantifier": "all programs (any number of objects, calls and control cycles), robots, robot states and feasible vectors", "why_tests_cant": "Programs are unbounded sequences of calls on several interacting objects that the formulation refers to by reference; a test follows one sequence.", "anchors": ["src/formulations/inverse-dynamics-formulation-acc-force.cpp: computeProblemData, addMotionTask, addForceTask, addActuationTask, addRigidContact, addMeasuredForce", "src/tasks/*.cpp: compute, setters", "src/contacts/*.cpp: computeMotionTask, setters", "src/contacts/measured-6d-wrench.cpp, measured-3d-force.cpp: computeJointTorques"]}
{"id": "C88", "title": "A control cycle of an orderly program has no undefined behaviour", "statement": "Let a user program construct task objects, contacts and measured forces, call their setters in any order, register, re-weight and remove them, and run any number of control cycles. If tasks were not given masks with another number of axes while registered, and registered force tasks have their gains set and refer to a registered surface contact, the next computeProblemData neither reads nor writes out of bounds, for every state of the robot: every registered object can be computed, and every matrix the formulation copies has the size of the block it is copied to.", "quantifier": "all programs (any number of objects, calls and control cycles), robots and robot states", "why_tests_cant": "The sizes depend on the whole history of calls on the task objects and on the formulation; a test follows one history.", "anchors": ["src/formulations/inverse-dynamics-formulation-acc-force.cpp: computeProblemData", "src/tasks/*.cpp: compute, setMask", "src/contacts/*.cpp: computeMotionTask"]}
{"id": "C89", "title": "The cost of the problem is the weighted sum of the errors that the program describes", "statement": "Let a user program construct task objects and contacts, call their setters in any order, register, re-weight and remove them, and run any number of control cycles. The least-squares cost that the second level of the next problem assigns to any vector x is half the weighted sum of: for every registered task of priority 1 the squared difference, on the selected axes, between what the accelerations, forces or torques decoded from x achieve and the control law with the gains and references last set; for every registered contact of priority 1 the squared error of its motion; for every registered contact the squared weighted difference between the wrench of its decoded force and the reference force last set. Each weight is the one of the registration or of the last update.", "quantifier": "all programs (any number of objects, calls and control cycles), robots, robot states and vectors x", "why_tests_cant": "The cost is the composition of setters, masks, column offsets, registration, transitions and weights; a test compares numbers of one program with the code's own matrices.", "anchors": ["src/formulations/inverse-dynamics-formulation-acc-force.cpp: computeProblemData, updateTaskWeight, updateRigidContactWeights", "src/tasks/*.cpp: compute", "src/contacts/*.cpp: computeForceRegularizationTask, setForceReference, setRegularizationTaskWeightVector"]}
{"id": "C90", "title": "From the text of a program to the output of solve", "statement": "Let a user program construct task objects, contacts and measured forces, call their setters in any order, register, re-weight and remove them, and run any number of control cycles; let the solver object have been used arbitrarily before. After the next computeProblemData, solve accepts the problem and its output can be decoded. If the external solver keeps its promises and succeeds, the status is optimal, the decoded solution satisfies the equations of motion, the laws and limits that the calls last set, and no vector that satisfies the first level has a smaller cost, the cost being the weighted sum of squared errors that the text of the program describes plus the regularisation of the back-end. If the weights are not negative and the first level can be satisfied, there is exactly one solution of the regularised problem.", "quantifier": "all programs, robots, robot states, histories of the solver object, answers of the external solvers and contents of uninitialised memory", "why_tests_cant": "The claim composes every part of the library over all histories; a test samples one program and compares it with itself.", "anchors": ["src/formulations/inverse-dynamics-formulation-acc-force.cpp: computeProblemData", "src/tasks/*.cpp, src/contacts/*.cpp: setters and compute", "src/solvers/*.cpp: solve, retrieveQPData"]}
{"id": "C91", "title": "Well-typed programs have no undefined behaviour", "statement": "Let a user program construct objects and make calls on them and on the formulation such that every call belongs to the class of its object, masks are 0/1 masks and vectors that are not checked by the code have the right size, there are two priority levels, tasks are added with distinct names and in their own family, a solution handed to decode has a value for every variable, and every computeProblemData happens when the registered tasks still have the sizes they were added with, force tasks have their gains and a registered surface contact, and no centre-of-pressure task meets a contact between two frames. Then no call of the program has undefined behaviour, whatever exceptions its calls throw; in a release build it runs to its end.", "quantifier": "all programs, robots, robot states, contents of uninitialised memory and build flags", "why_tests_cant": "Undefined behaviour shows, if at all, under a sanitizer and only on the paths a test takes; the claim is about all interleavings of calls on all objects.", "anchors": ["src/formulations/inverse-dynamics-formulation-acc-force.cpp", "src/tasks/*.cpp, src/contacts/*.cpp: setters and compute"]}
{"id": "C92", "title": "The constraint level is exactly what the program asks for, so optimal solutions are the best that obey it", "statement": "After any orderly program, a vector satisfies the first level of the assembled problem if and only if the accelerations, forces and torques decoded from it obey the text of the program: the equations of motion with the registered contacts and measured forces, for every task of priority 0 the law of its class with the gains, masks and references last set (or its limits), rest or the commanded acceleration of every contact of priority 0, and for every registered contact the friction pyramid and force limits last accepted by its setters. Hence, for each of the six back-ends, whenever the external solver keeps its promise and succeeds, the decoded solution obeys the program and has the smallest objective among all accelerations, forces and torques that obey it. A well-typed program in a release build reaches such a cycle, and the cycle returns when no contact is removed gradually.", "quantifier": "all programs, robots, robot states, earlier uses of the solver and vectors", "why_tests_cant": "A test can show that one solution satisfies the demands; that the problem contains no further demand which would exclude a better motion is a statement about all vectors.", "anchors": ["src/formulations/inverse-dynamics-formulation-acc-force.cpp: computeProblemData, decodeSolution, getters", "src/contacts/*.cpp: setters and computeForceTask", "src/tasks/*.cpp: compute", "src/solvers/*.cpp: solve"]}
{"id": "C93", "title": "Control loops track their references for as long as they run", "statement": "Take any program that runs one control cycle after the other, with any calls in between, and a robot that is accelerated in each period of length h as the solution of the cycle prescribes. If a posture, centre-of-mass, frame or two-frames task (or the motion of a contact) stays registered at priority 0 with gains kp and kd such that kp > 0, h kp < 2 kd and h kd < 2, and its reference is a sampled motion, then position error and velocity error decay geometrically and tend to zero; constant and rate depend on the gains and the period only. The angular-momentum error is multiplied by 1 - h kp in each period. The conditions on the gains cannot be weakened: otherwise some error does not vanish. A well-typed program without gradual removals can be followed by any number of cycles, each of which returns, and a controller that solves every cycle with one of the six back-ends, with success, runs such a loop.", "quantifier": "all programs, robots, numbers of cycles, gains, periods, references and initial errors; all uses of one solver object", "why_tests_cant": "Convergence is a statement about infinitely many cycles, for all gains that satisfy the conditions; a test runs finitely many cycles with one choice of gains.", "anchors": ["src/tasks/task-joint-posture.cpp: compute", "src/tasks/task-com-equality.cpp: compute", "src/tasks/task-se3-equality.cpp: compute", "src/tasks/task-two-frames-equality.cpp: compute", "src/tasks/task-angular-momentum-equality.cpp: compute", "src/contacts/*.cpp: computeMotionTask", "src/formulations/inverse-dynamics-formulation-acc-force.cpp: computeProblemData, decodeSolution", "src/solvers/*.cpp: solve"]}
{"id": "C94", "title": "Joint limits hold for as long as a control loop runs", "statement": "Take any program that runs one control cycle after the other, with any calls in between, and that holds a task of combined joint limits at priority 0 with all limits imposed on all joints and enough room for braking. If the joints are in viable states in the beginning, the cycles are at most 2 dt apart and the joints move in between with the accelerations that the solutions prescribe, then at every instant of the unlimited run every joint is inside its position and velocity limits, can be stopped before its position limits, and its acceleration is within its limits. In viable states the task asks exactly for this and for nothing more, in terms of the limits in the text of the program. On robots with a motor on every joint, if the task is the only thing of priority 0, the first level of the problem can be satisfied in every cycle, so a controller whose external solver succeeds when there is a solution never fails. Joint-bounds tasks keep velocities and accelerations within their limits at every instant.", "quantifier": "all programs, robots, limits with enough room, viable initial states, numbers and lengths of cycles up to 2 dt; all instants; all six back-ends", "why_tests_cant": "That no cycle of an unlimited run meets contradictory limits or leaves them between two cycles is a statement about infinitely many states and instants.", "anchors": ["src/tasks/task-joint-posVelAcc-bounds.cpp: compute, computeAccLimits", "src/tasks/task-joint-bounds.cpp: compute", "src/formulations/inverse-dynamics-formulation-acc-force.cpp: computeProblemData, decodeSolution", "src/solvers/*.cpp: solve"]}
{"id": "C95", "title": "Reading a setting back returns what was last accepted", "statement": "For every class of tasks, contacts, measured wrenches, robots and trajectory samples, and every setting for which there is a getter: after any history of calls (setters accepted or rejected, compute in between), the getter in C++ and the attribute of the Python class return the value that the last accepted call of the setter was given, and before the first such call the documented default. Rejected calls leave no trace.", "quantifier": "all classes, settings, sizes, values, histories of calls including rejected ones; both build types; C++ and Python", "why_tests_cant": "Whether a getter can ever return a stale, rejected, reset or foreign value is a statement about all histories of all other calls on the object.", "anchors": ["src/tasks/*.cpp: Kp, Kd, mask, getMask, getReference, get*Bounds", "src/contacts/*.cpp: Kp, Kd, getMinNormalForce, getMaxNormalForce", "include/tsid/tasks/task-joint-posVelAcc-bounds.hpp: m_mask", "include/tsid/bindings/python/tasks/task-contact-force-equality.hpp: Ki", "include/tsid/bindings/python/tasks/task-se3-equality.hpp: getMask", "include/tsid/bindings/python/trajectories/trajectory-base.hpp", "src/robots/robot-wrapper.cpp: rotor_inertias, gear_ratios"]}
{"id": "C96", "title": "Vector, matrix and placement operations mean what they mean in mathematics", "statement": "The operations of Eigen and pinocchio that the code is written in - dot and cross products, norms, normalisation, products, transposes, head/tail/segment, rows, columns and block assignment, the skew matrix, act and actInv on points, placements and spatial velocities - are, as modelled, the standard ones: the same functions of Mathlib's vectors and matrices, conjugation with homogeneous matrices for act on velocities, and an error exactly when sizes do not match in a block assignment.", "quantifier": "all vectors, matrices, placements with proper rotations, sizes; over any field (norms over the reals)", "why_tests_cant": "Specification and code share these operations, so a sign or an index wrong in both would go unnoticed by every comparison of one with the other; agreement has to hold for all arguments.", "anchors": ["include/tsid/math/fwd.hpp: 27-46", "src/math/utils.cpp: SE3 conversions", "src/contacts/contact-6d.cpp: skew in the force generator", "src/tasks/task-se3-equality.cpp: act, actInv, errorInSE3"]}
{"id": "C97", "title": "dim() of a task is the number of rows of its constraint", "statement": "After any history of calls, dim() of a task equals the number of rows of the constraint the task returns; for a task with a mask it is the number of selected axes or joints.", "quantifier": "all tasks, all histories of calls, all masks, all contacts", "why_tests_cant": "Tests compare dim() with the rows of a new task or after one mask; a mask that the task refuses, a mask on a task whose dim() ignores it, or a contact with another force generator needs all histories.", "anchors": ["src/tasks/task-joint-posVelAcc-bounds.cpp: dim, setMask", "src/tasks/task-joint-posture.cpp: dim", "src/tasks/task-contact-force-equality.cpp: dim, compute", "src/tasks/task-actuation-bounds.cpp: dim", "src/tasks/task-se3-equality.cpp: dim"]}
{"id": "C98", "title": "Poses written with quaternions lose nothing", "statement": "SE3ToXYZQUAT writes the translation and then a unit quaternion, imaginary part first, whose conjugation is the rotation of the pose; poses with the same vector are equal; vectors that do not have seven coefficients are refused.", "quantifier": "all placements with proper rotations, all vectors", "why_tests_cant": "The conversion has four branches chosen by signs and sizes of the entries; that each of them returns a quaternion of the same rotation is an identity for all rotations, including half turns where the usual formula divides by zero.", "anchors": ["src/math/utils.cpp: SE3ToXYZQUAT"]}
{"id": "C99", "title": "The solution is the one best behaviour that the text of the program describes", "statement": "Describe a behaviour of the robot by its joint accelerations, motor torques and contact forces. It obeys the text when, for all virtual velocities, the powers of inertia, gravity, motors, contacts and measured forces balance (d'Alembert), every task of priority 0 has the acceleration, force or limits that its calls ask for, contacts of priority 0 rest or accelerate as commanded, and contact forces keep the friction pyramids and limits last accepted. Then a vector is feasible for the assembled problem exactly when the behaviour decoded from it obeys the text, its cost is the weighted sum of squared errors of the tasks of priority 1 and of the contact forces, and every behaviour in balance is decoded from some vector. Hence each back-end that succeeds returns a best behaviour. With regularisation and weights that are not negative the best behaviour is unique (and over the reals exists as soon as some behaviour obeys), so all regularising back-ends agree; and it does not depend on the order in which tasks, contacts and measured forces were registered.", "quantifier": "all programs, robots, robot states, earlier uses of the solver, behaviours and rearrangements of the registrations", "why_tests_cant": "Columns, rows and names are laid out by the order of registration; that no layout changes the solution, and that nothing but the text decides it, concerns all programs and all behaviours.", "anchors": ["src/formulations/inverse-dynamics-formulation-acc-force.cpp: computeProblemData, decodeSolution, getters, add*", "src/contacts/*.cpp", "src/tasks/*.cpp: compute", "src/solvers/*.cpp: solve"]}
{"id": "C100", "title": "Letting go of a contact lowers its normal force along a straight line and nothing else", "statement": "A program reads the solution of a control cycle at time t0 and then removes a contact gradually within the time dur. Until t0 + dur, whatever other calls it makes (except removals that interfere), the contact stays registered, the following cycles return without exception, and the first priority asks for exactly what the text of the program says with one change: the normal force of this contact is at most m(t), which falls on the straight line from the normal force in the solution at t0 to a thousandth above the minimum at t0 + dur. Solvers that succeed return the best behaviour under these demands. At t0 the previous behaviour is still allowed (no jump); the limit changes by at most |t - t'|/dur times the force; in the last cycles before the end every corner force of the contact is as small as the minimum force allows; in the first cycle after t0 + dur the contact is gone.", "quantifier": "all programs before and during the removal, robots, robot states, times, solutions, kinds of contacts with a normal force", "why_tests_cant": "The removal spans several calls and cycles whose times and other calls are arbitrary; that nothing but this limit changes concerns every vector and every program.", "anchors": ["src/formulations/inverse-dynamics-formulation-acc-force.cpp: removeRigidContact, computeProblemData (transitions), decodeSolution", "src/contacts/*.cpp: getNormalForce, setMaxNormalForce"]}
{"id": "C101", "title": "Problems put together by hand in Python are solved as the text of the program says", "statement": "A Python program makes constraints, levels and problems, appends constraints to levels and levels to problems, and changes constraints, in any order, using no variable before it exists. The program ends (in debug builds exactly when no vector is set in an inequality or bound and no limit in an equality). A solver that is passed a problem gets the levels appended to it, each with the weights and constraints that it had when it was appended, in order; the constraints contain what was last accepted, whether set before or after. If sizes agree in the text, there are two levels and only equalities in the second, every solver solves the problem that the text says.", "quantifier": "all programs of any length, numbers and sizes of constraints, matrices and vectors, builds, all six back-ends, however the solver objects were used before", "why_tests_cant": "test_Solvers.py runs one program; the order of calls, the aliasing between levels, problems and constraints and the sizes are unbounded.", "anchors": ["include/tsid/bindings/python/utils/container.hpp: ConstraintLevels, HQPDatas", "include/tsid/bindings/python/constraint/*.hpp", "include/tsid/bindings/python/solvers/solver-HQP-eiquadprog.hpp: solver_helper", "tests/python/test_Solvers.py"]}
{"id": "C102", "title": "Any number of gradual contact removals: limits of contact forces follow the story that the text tells", "statement": "An orderly program may let go of any number of contacts gradually, of every kind, one after the other or at once, with a solution read or not, and may change limits meanwhile. From the text alone one can tell the limits of every contact force in the next cycle: each maximum is lowered along the line from the normal force at the call (from the forces read last; the maximum if they are too few; 0 for two-frame contacts) to a thousandth above the minimum, contacts considered in order of the calls until the first one whose time has run out, which is then gone. The next cycle stops with an exception exactly when one of the limits considered would fall below the minimum of its contact. Otherwise the solver's problem says what the text says with these limits, and the solution is the best behaviour among those that obey.", "quantifier": "all programs, calls, orders, durations, times (also running backwards in release builds), contacts, robots, snapshots, all solvers that keep their promises", "why_tests_cant": "No test removes a contact gradually while another one is being removed; the number and order of removals and the times are unbounded.", "anchors": ["src/formulations/inverse-dynamics-formulation-acc-force.cpp: computeProblemData 236-266", "src/formulations/inverse-dynamics-formulation-acc-force.cpp: removeRigidContact 508-530", "src/contacts/contact-6d.cpp: setMaxNormalForce, getNormalForce"]}
{"id": "C103", "title": "Debug and release builds: the same behaviour, up to assertions that the text predicts", "statement": "A debug build (no NDEBUG) and a release build do the same in every call of the formulation, of task and contact objects, of constraints and problems put together in Python and of the solver classes, except that the debug build may stop at an assertion; so a program that ends in a debug build ends in the same state in a release build. For well-typed programs the assertions that can fail are known from the text: a task or contact is removed (at once) that is not registered, or a control cycle considers a gradual removal that began after the time of the cycle or whose time is over and whose contact is no longer registered. In particular a well-typed program that removes only what is registered, does nothing to a contact while it is being let go, and whose times do not decrease runs to its end in a debug build.", "quantifier": "all programs, states, calls, robots, snapshots, durations, times; all solver objects, problems and answers of the external solver", "why_tests_cant": "Continuous integration builds one configuration at a time and never compares the two; states and programs are unbounded.", "anchors": ["src/formulations/inverse-dynamics-formulation-acc-force.cpp: computeProblemData 236-266", "src/formulations/inverse-dynamics-formulation-acc-force.cpp: removeTask 465-501, removeRigidContact 503-562, getTaskPriority 594-607", "src/tasks/task-two-frames-equality.cpp: Kp, Kd", "include/tsid/solvers/solver-HQP-eiquadprog-rt.hxx: resize"]}
{"id": "C104", "title": "Combined joint limits with any kinds of limits imposed", "statement": "Whatever kinds of limits (position, velocity, viability, acceleration) a program imposes through TaskJointPosVelAccBounds: if the limits of every joint can be kept (a joint with position limits is inside and not leaving, the acceleration limit is positive where viability is imposed, and some acceleration keeps all limits that are imposed), then the task asks exactly for the accelerations that keep the limits for two time steps: the joint stays inside its position limits, its speed at the end is within the limit, it can still be stopped, the acceleration is within its limit, each as far as it is imposed. So the program means what its text says also for tasks with only some kinds of limits. In a control loop with a velocity limit alone the speed is within the limit at every instant of the unlimited run.", "quantifier": "all robots, programs, states, subsets of the kinds of limits, limits, time steps, numbers of cycles", "why_tests_cant": "Sixteen subsets of limits times a continuum of states and limits and any history of calls that switch limits on and off; safety between samples of an unlimited run.", "anchors": ["src/tasks/task-joint-posVelAcc-bounds.cpp: computeAccLimits, setImposeBounds, setPositionBounds, setVelocityBounds, setAccelerationBounds (150-210, 266-434)", "src/formulations/inverse-dynamics-formulation-acc-force.cpp: computeProblemData (246-320)"]}
{"id": "C105", "title": "Control loops with disturbances: bounded errors, speed limits with a margin", "statement": "A control loop holds a posture, centre-of-mass, frame or contact task with gains that suit its period, on a robot that is not accelerated exactly as the solutions say (model errors, torques that are not realised, accelerations that vary within a period) and with a reference that is not piecewise quadratic. Then the initial error dies out geometrically and disturbances are forgotten geometrically, with constants that depend on gains and period only: bounded disturbances leave an error of at most a multiple of their size, vanishing disturbances leave none; a steady disturbance can leave a steady error. Velocity limits of joint-bounds tasks and of tasks of combined limits are exceeded by at most the disturbance of one time step, at every instant of the unlimited run, and the limits can be kept in every cycle.", "quantifier": "all robots, programs, loops of any length, gains, periods, disturbances, references", "why_tests_cant": "Any sequence of disturbances over an unlimited run; tests simulate one exact integrator with one reference.", "anchors": ["src/tasks/task-joint-posture.cpp: compute (123-139)", "src/tasks/task-com-equality.cpp: compute (93-130)", "src/tasks/task-se3-equality.cpp: compute (136-205)", "src/tasks/task-joint-bounds.cpp: compute (89-105)", "src/tasks/task-joint-posVelAcc-bounds.cpp: compute (188-201), computeAccLimits* (266-434)", "tests/tsid-formulation.cpp: main loops"]}
{"id": "C106", "title": "Control loops with tasks of priority 1: what is weighed is tracked up to what the rest costs", "statement": "Of a task of priority 1 the solution misses, in squares and weighed, at most what any behaviour that obeys the text of the program misses of all objects together. If all laws and reference forces can be had together, a back-end without regularisation has them all. In a control loop that holds a posture, centre-of-mass, angular-momentum or frame task at priority 1 with weight at least k, in which in cycle n some behaviour that obeys the text has a weighted sum of squared errors of at most eps(n), the error of the task dies out up to a disturbance of the size sqrt(eps(n)/k), with constants that depend on gains and period only. Loops run with any of the six back-ends are such loops.", "quantifier": "all robots, programs, loops of any length, weights, gains, periods, references, solver internals", "why_tests_cant": "The bound relates the solver's trade-off to every behaviour the text allows, over an unlimited run; tests print tracking errors of one run with one set of weights.", "anchors": ["src/formulations/inverse-dynamics-formulation-acc-force.cpp: addMotionTask (85ff), computeProblemData (243-401)", "src/solvers/solver-HQP-eiquadprog.cpp: solve (208ff)", "src/tasks/task-joint-posture.cpp: compute (123-139)", "src/tasks/task-com-equality.cpp: compute (93-130)", "src/tasks/task-se3-equality.cpp: compute (136-205)", "src/tasks/task-angular-momentum-equality.cpp: compute (74-94)", "tests/tsid-formulation.cpp: main loops"]}
{"id": "C107", "title": "Programs that pass a check of their text run, and every control cycle returns", "statement": "Whether a program that uses the library is correct can be decided by reading it. Take any construction of tasks, contacts and measured forces by the constructors of their classes, and any sequence of calls in which contacts are removed at once (duration not positive). If every call passes a check that looks only at the calls before it (names not in use when something is added, level 0 or 1, arguments of the sizes the classes announce, no more force variables read than there are, nothing missing removed in a debug build), then the program runs to its end: no call has undefined behaviour, no unexpected exception is thrown and no assertion fails, in either build. What is registered at the end is what the text says, every control cycle returns, and after every cycle each of the six back-ends whose external solver keeps its promises delivers a best solution of what the text asks for.", "quantifier": "all robots, constructions, texts of any length, both builds, all arguments, all external solvers that keep their promises", "why_tests_cant": "A test runs one text. The claim is that a condition on texts, with no state of the program in it, is enough for every text that meets it.", "anchors": ["src/formulations/inverse-dynamics-formulation-acc-force.cpp: addMotionTask, addForceTask, addActuationTask, addRigidContact, removeTask, removeRigidContact, computeProblemData (105-700)", "src/tasks/*.cpp: constructors, setters, compute", "src/contacts/*.cpp: constructors, setters, computeMotionTask", "src/solvers/*.cpp: solve"]}
{"id": "C108", "title": "Walking programs built on the class TsidBiped run; its flags, references and contacts are what its methods say", "statement": "The class `TsidBiped` of the exercises builds a controller for a robot on two feet; its methods lift a foot, put it down and set references. Take any configuration with non-negative weights and a 0/1 mask, and any sequence of calls in which a foot is put down only when it is in the air and lifted, at once, only when it stands. Then (1) the whole program, constructor included, runs without undefined behaviour or failed assertion, the methods raise no exception and the constructor raises one only if the gain vector, the limits or the reference configuration have a wrong size, every control cycle returns, and after a cycle every back-end whose external solver keeps its promises delivers the best point that obeys the program; (2) what is registered are the tasks of the constructor with their weights and exactly the contacts of the feet that stand, once each, and the flags contact_RF_active, contact_LF_active say the same; (3) the task of a foot asks for the last reference with the orientation the foot had in the constructor, or for the place where the foot was lifted, whichever came last, and the contact of a foot asks it to stay where it was put down last; (4) the constructor puts the right foot on the ground: its contact points have height 0 if the foot is level; (5) the walking loops make such calls whenever the first phase is on the right foot, whatever references they set; (6) the tasks ask for what the configuration file and the calls say: the gains with critical damping, the joint and torque limits, the damping of the angular momentum about the horizontal axes, the posture, the latest goals of centre of mass and centre of pressure. Two surprises are characterised: before its first reference a foot task asks the foot, and the task of the centre of mass the centre of mass, to go to the origin of the world, and the loop of test_cop_task.py ends properly only if the last two phases are the same.", "quantifier": "all configurations, kinematics functions, initial states, sequences of method calls, lists of contact phases and lengths", "why_tests_cant": "The exercises run one robot along one recorded trajectory with a viewer and check nothing; which sequences of lifting and putting down are safe, and for which phase lists the loops are, are statements about all of them.", "anchors": ["exercizes/tsid_biped.py:19-173", "exercizes/tsid_biped.py:225-301", "exercizes/ex_4_walking.py:119-146", "exercizes/test_cop_task.py:88-128"]}
{"id": "C109", "title": "Which calls of a checked program raise an exception can be read off its text", "statement": "Take a program made of library calls whose text passes the check of C107 (tasks, contacts and formulation calls in any order, names fresh when registered and present when removed, masks of zeros and ones). Then a call raises an exception if and only if one of the documented argument checks fails: a gain, mask, weight or bound vector of the wrong size (for torque bounds: the number of joints selected by the latest mask), a reference whose position, velocity or acceleration part has the wrong size, a time step that is not positive, an upper bound below the lower one, a negative weight or duration of a task, contact points that are not 3 x 4, a normal that is no 3-vector, a friction coefficient or minimal force that is not positive, a minimal force above the maximal one or a maximal below the minimal one, with the limits set by the latest accepted calls. Every other call returns normally. So a program that catches nothing comes to its end if and only if its text has no such call, and it then ends in the same state.", "quantifier": "all robots, declarations of tasks and contacts, checked programs of any length, positions in them", "why_tests_cant": "The unit tests call the setters with well-sized arguments only; that no other call throws in any order, and that the checks see exactly the sizes left by all earlier calls, is about all programs.", "anchors": ["src/tasks/task-joint-posture.cpp:34-90", "src/tasks/task-actuation-bounds.cpp:23-69", "src/tasks/task-se3-equality.cpp:66-90", "src/contacts/contact-6d.cpp:137-195", "src/contacts/contact-point.cpp:112-180", "src/formulations/inverse-dynamics-formulation-acc-force.cpp:83-130"]}
{"id": "C110", "title": "Programs that let contacts go gradually can be checked by reading them too", "statement": "The check of C107 and the list of exceptions of C109 extend to programs that remove contacts gradually (removeRigidContact with a positive duration). From the text alone one computes what is registered, which contacts are being let go, and the limits of all contact forces: each cycle lowers the maximal normal force of the contacts being let go along a straight line from the force of the latest decoded solution (or the maximal force) to a thousandth above the minimum, and a contact disappears in the first cycle after its time. If every call of the text passes the check, then (1) the program runs to its end without undefined behaviour or failed assertion, in either build; in a debug build it is enough that no cycle lies before the beginning of a removal that lasts and that a contact whose time has run out is still there; (2) at its end what is registered and the limits are what was computed; (3) a call raises an exception if and only if an argument check of C109 fails, with the lowered limits, or it is a cycle that would lower a maximal force below the minimal one; (4) a program that catches nothing comes to its end if and only if its text has no such call; (5) after a cycle that is not refused every back-end whose external solver keeps its promises delivers a best behaviour within the lowered limits. Every program checked by C107 passes this check.", "quantifier": "all robots, declarations of tasks and contacts, texts of any length with removals of any duration, cycles at any times (also backwards in time), both builds", "why_tests_cant": "The tests remove one contact after one second with cycles at fixed times. The claim is about every interleaving of removals, new limits, decoded solutions and cycles.", "anchors": ["src/formulations/inverse-dynamics-formulation-acc-force.cpp: computeProblemData (241-285), removeRigidContact (508-570)", "src/contacts/contact-point.cpp: setMaxNormalForce", "src/contacts/contact-6d.cpp: setMaxNormalForce", "include/tsid/formulations/contact-level.hpp"]}
{"id": "C111", "title": "The manipulator controller of the exercises does what its configuration asks for", "statement": "For every robot arm whose degrees of freedom all have a motor, every configuration file and every program that constructs a TsidManipulator, sets references of the end effector and runs control cycles: (1) the program runs to its end without undefined behaviour or failed assertion and registers exactly the posture task, the task of the end effector and those of the two limits that have a positive weight; (2) what the problem data ask for is exactly: the equations of motion, torques within plus and minus the scaled effort limits, velocities one time step later within plus and minus the scaled velocity limits, and, as small as possible, the weighted sum of the critically damped return of the joints to the initial configuration and of the critically damped tracking of the last reference of the end effector on the axes of the mask; (3) if the external solver of a back-end keeps its promises, the accelerations and torques that the getters return are a best choice, and, if the posture task has a positive weight, the only one; (4) if the joints alone can do what both tasks ask for, they do it; (5) the program raises no exception if and only if the limits, the configuration and the references have the right sizes; (6) the loop of the exercise raises none for any number of steps, and at step N the end effector is asked to be on the sinusoid at time N*dt, with velocity and acceleration that are its derivatives; (7) with integrate_dv every later velocity is within the limits, every torque too, and the configuration moves by the exact displacement of a uniformly accelerated motion; (8) until the first reference is set, the task of the end effector pulls to the origin of the world; (9) two back-ends with the same regularisation that succeed return the same accelerations and torques; (10) if the limits can be kept there is a best motion; (11) as long as the motors can hold the arm against gravity, Coriolis and centrifugal forces, every step of the loop has a solution.", "quantifier": "all fixed-base robots, configurations, references, states of the robot, numbers of steps, back-ends and solver behaviours", "why_tests_cant": "The exercise is one run of one robot with one configuration, judged by eye; the claim is about all of them and about the best solution, which no run shows.", "anchors": ["exercizes/tsid_manipulator.py: __init__ (38-77), integrate_dv (111-115)", "exercizes/ex_1_ur5.py: 41-100", "exercizes/ur5_reaching_conf.py"]}
{"id": "C112", "title": "The quadruped demo: it runs, asks for what it says, and its feet are held only softly", "statement": "For every robot with a floating base, four point feet and motors on all other degrees of freedom, all constants of the demo and every number of steps of its loop: (1) the program runs to its end without undefined behaviour or failed assertion and registers exactly the four contacts, the task of the centre of mass and the posture task, all at the lower priority; (2) what the problem data ask for is exactly: the laws of mechanics, normal forces within the limits, forces within the friction pyramid, and, as small as possible, the sum of the squared errors of the accelerations that would bring the feet back to their places with critical damping, the weighted contact forces, the critically damped tracking of the sinusoid by the centre of mass and the critically damped return of the joints; (3) if the external solver of a back-end keeps its promises, the accelerations, torques and contact forces that the getters return are a best choice; (4) if anything is admissible there is a best choice and, with regularisation, only one, so that all back-ends that regularise agree; (5) the program raises no exception if and only if the configuration has one entry for each joint after the seven of the base, or the loop is not entered; (6) whatever the solver answers, the loop goes on; step i happens at time i*dt, with velocity and acceleration of the reference that are its derivatives; (7) feet in contact do not accelerate. Part 7 is false: with the same contact forces all accelerations with the same effect on the base are admissible; what holds is that the squared errors of the feet are at most twice the cost of any admissible behaviour, and for a robot that rests at most the weighted squares of the forces that bear it.", "quantifier": "all floating-base robots with four point feet, constants, states of the robot, references, numbers of steps, back-ends and solver behaviours", "why_tests_cant": "The demo is one run of one robot with one set of constants; slipping feet show only in states that the run does not reach, and optimality and uniqueness concern all other behaviours.", "anchors": ["demo/demo_quadruped.py: 25-42, 87-116, 122-203", "src/contacts/contact-point.cpp", "src/formulations/inverse-dynamics-formulation-acc-force.cpp: addRigidContact"]}
{"id": "C113", "title": "The gripper demo: it runs, its passive joints get no torque, and its chain is closed only softly", "statement": "For every robot without floating base and with at least two joints, all constants of the demo and every number of steps of its loop: (1) the program runs without undefined behaviour or failed assertion and registers exactly the tasks of fingertip and posture and the contact between two frames at the lower priority, and the torque bounds at the higher one; (2) what the problem data ask for is exactly: the laws of mechanics, where the contact pulls at the two frames with opposite forces whose components are within the limits, no torque of the two passive joints, torques of the other joints within the effort limits, and, as small as possible, the weighted sum of the squared errors of the fingertip, of the joints and of the relative acceleration that would close the gap between the two frames, all critically damped, and of the contact force; (3) if the external solver of a back-end keeps its promises, the accelerations, torques and the contact force that the getters return are a best choice; (4) if anything is admissible there is a best choice and, with regularisation or with positive weights of posture and contact force, only one, so that all back-ends with the same regularisation agree; (5) the program raises no exception if and only if there is one effort limit for each joint and, if the loop is entered, the configuration has one entry for each joint; (6) step i of the loop happens at time i*dt; the reference keeps the orientation of the fingertip and moves its position on a sinusoid, with velocity and acceleration that are the derivatives; whatever accelerations the solver finds, the velocities add up and each configuration is integrated with the mean of the velocities before and after the step; (7) the kinematic chain stays closed. Part 7 is false: with the same contact force all accelerations with the same effect on the passive joints that the motors can bring about are admissible; what holds is that the squared error of the gap is at most twice the cost of any admissible behaviour.", "quantifier": "all fixed-base robots with at least two joints, constants, states of the robot, references, numbers of steps, back-ends and solver behaviours", "why_tests_cant": "The demo is one run of one gripper with one set of constants; whether the chain may open depends on states that the run does not reach, and optimality and uniqueness concern all other behaviours.", "anchors": ["demo/demo_tsid_talos_gripper_closed_kinematic_chain.py: 25-34, 63-120, 122-123, 137-193", "src/contacts/contact-two-frame-positions.cpp", "src/formulations/inverse-dynamics-formulation-acc-force.cpp: addRigidContact"]}
{"id": "C114", "title": "The exercise on joint space control: the solver realises the desired accelerations up to a known factor, and the loop is stable exactly below a step size", "statement": "For every robot without floating base, all constants of the exercise, all references and every number of steps of its loop: (1) the program runs without undefined behaviour or failed assertion and registers the posture task alone; (2) what the problem data ask for is exactly the equations of motion and, as small as possible, the weighted sum of the squared differences between the accelerations and those of the critically damped PD law; (3) if the weight is positive there is exactly one best behaviour: the accelerations of the PD law times w/(w+1e-8) for back-ends that regularise, times 1 for the others, with the torques that bring them about; every back-end whose external solver keeps its promises and succeeds returns it; (4) the program raises no exception if and only if configuration and references have one entry for each joint; (5) step i happens at time i*dt, the reference is a sinusoid with velocity and acceleration that are its derivatives, the velocities add up and each configuration is integrated with the mean velocity; (6) for a constant reference on a vector space of configurations, with c the factor of (3), the joints converge to the reference and come to rest from every state if c*dt*sqrt(kp) < 1 and dt*sqrt(kp) < 4; otherwise there are states from which they do not. (7) Under the same conditions the distance of the joints from any moving reference is in the long run at most a constant, depending on gain, weight and time step alone, times the largest amount by which the samples of the reference differ from a motion with c times their acceleration during each time step.", "quantifier": "all fixed-base robots, constants, states of the robot, references, numbers of steps, back-ends and solver behaviours; the limit over infinitely many steps", "why_tests_cant": "The exercise is one run of one arm with one set of constants; convergence is about infinitely many steps, and the exact step size below which the loop is stable and the exact factor of the regularisation cannot be read off a plot.", "anchors": ["exercizes/ex_0_ur5_joint_space_control.py: 29-40, 78-124", "exercizes/ur5_conf.py: 15, 25, 30", "src/tasks/task-joint-posture.cpp", "include/tsid/solvers/fwd.hpp: 28"]}
