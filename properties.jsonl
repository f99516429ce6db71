{"id": "C01", "title": "Grid iteration enumerates the surrounding blocks exactly once", "statement": "After any sequence of successful Store calls on a cleared grid, iterating from cbegin(x) to cend() for a position x inside the grid terminates, never touches a block outside the grid, and yields exactly the particle numbers that were stored in the 3^D blocks around x's block: each stored number once per Store, nothing else, block by block in lexicographic block order and in insertion order inside a block.", "quantifier": "every grid shape, every sequence of Store calls that neither throws nor leaves the grid, every query position inside the grid (corner, edge, interior), D = 2 and D = 3", "why_tests_cant": "The iterator packs (slot, block) into one integer and skips empty and out-of-range blocks; the number of occupancy patterns of 9 (27) blocks times boundary positions is unbounded in the counts.", "anchors": ["src/OpenMps/Grid.hpp: Grid::Iterator::Increment, CreateBegin, CreateEnd, operator*", "src/OpenMps/Grid.hpp: Grid::Store, Grid::cbegin, Grid::cend"]}
{"id": "C02", "title": "No near particle is missed by the grid", "statement": "For a grid built with block length L, every particle that was stored at a position closer than L to a query position x is yielded by the iteration from cbegin(x) to cend().", "quantifier": "every pair of positions, every stored population, every origin (exact arithmetic)", "why_tests_cant": "Needs the floor inequality for all reals; a test only samples positions, and the critical ones are on block boundaries.", "anchors": ["src/OpenMps/Grid.hpp: Grid::Block, Grid::Iterator, Grid::Store"]}
{"id": "C03", "title": "Store rejects exactly the positions outside the grid and then changes nothing", "statement": "Store(x, id) returns false exactly when some block index of x is negative or not below the grid size; it then leaves the grid unchanged. Otherwise, unless it throws, it returns true, increments the count of exactly one block by one and keeps every previously stored number.", "quantifier": "every grid state, position and particle number", "why_tests_cant": "Quantifies over all positions and grid contents.", "anchors": ["src/OpenMps/Grid.hpp: Grid::Store, Grid::Block, Grid::ParticleCount"]}
{"id": "C04", "title": "Store throws exactly on overfull blocks, and no slot write is ever out of bounds", "statement": "Starting from a cleared grid, Store throws 'Too many particle in a block' exactly when the target block already holds MaxParticles() = (ceil(L/l_0)+1)^D particles, and whenever it writes a slot the slot index is below MaxParticles().", "quantifier": "every sequence of Store calls on a cleared grid", "why_tests_cant": "Off-by-one errors only show at full blocks; the claim is about every history of stores.", "anchors": ["src/OpenMps/Grid.hpp: Grid::Store, Grid::MaxParticles, Grid constructor"]}
{"id": "C05", "title": "Clear resets the grid completely", "statement": "After Clear() (2-D) the grid behaves like a newly constructed one: every block count is 0, whatever was stored before, including after a Store that threw. In 3-D this fails when the grid is longer in y than in x (and writes outside the array when it is shorter).", "quantifier": "every grid state reachable by any history of Store/Clear calls, including throwing ones; every shape", "why_tests_cant": "Stale data from an arbitrary previous history must never be observable.", "anchors": ["src/OpenMps/Grid.hpp: Grid::Clear"]}
{"id": "C06", "title": "Well-spaced particles never overflow a block", "statement": "If any two particles are at least l_0 apart along some axis (for instance any initial lattice of pitch l_0), then storing all of them never throws 'Too many particle in a block'.", "quantifier": "every number and arrangement of particles with that spacing, every l_0, L > 0 (exact arithmetic)", "why_tests_cant": "It is a pigeonhole bound over all arrangements.", "anchors": ["src/OpenMps/Grid.hpp: Grid constructor (block capacity), Grid::Store", "src/OpenMps/Computer.hpp: Computer::SearchNeighbor"]}
{"id": "C07", "title": "Neighbour lists are exact", "statement": "After the neighbour search of a time step, the neighbour list of every enabled particle i contains exactly the enabled particles j different from i with |x_i - x_j| < NeighborLength, each exactly once; hence being a neighbour is symmetric.", "quantifier": "every particle configuration for which the step does not throw (exact arithmetic)", "why_tests_cant": "Equivalence with the all-pairs definition over every configuration.", "anchors": ["src/OpenMps/Computer.hpp: Computer::SearchNeighbor, NeighborCount, Neighbor", "src/OpenMps/Grid.hpp: Grid"]}
{"id": "C08", "title": "A time step never reads or writes out of bounds", "statement": "ForwardTime(dt) on any computer built by the constructor and any sequence of AddParticles/ForwardTime calls never indexes outside the particle array, the grid, or a row of the neighbour table, and the neighbour iteration always terminates.", "quantifier": "every history of AddParticles and ForwardTime calls with arbitrary positions, velocities and time steps (any arithmetic, provided block numbers are representable)", "why_tests_cant": "Memory safety over all histories, including after exceptions.", "anchors": ["src/OpenMps/Computer.hpp: Computer::SearchNeighbor, AddParticles, ForwardTime", "src/OpenMps/Grid.hpp: Grid::Iterator"]}
{"id": "C09", "title": "A time step preserves the population", "statement": "ForwardTime neither adds, removes nor reorders particles: Particles() has the same length and particle i after the step is the continuation of particle i before it; AddParticles appends the new ones in order after the existing ones, unchanged.", "quantifier": "every history of AddParticles and ForwardTime calls, any arithmetic, also when a step throws", "why_tests_cant": "All histories.", "anchors": ["src/OpenMps/Computer.hpp: Computer::ForwardTime, Computer::AddParticles, Computer::Particles"]}
{"id": "C10", "title": "The only type change is to Disabled, and it is permanent", "statement": "Over any history of calls, a particle's type either stays what it was when added or becomes Disabled; once Disabled it stays Disabled for ever.", "quantifier": "every history, any arithmetic, any schedule, also when a step throws", "why_tests_cant": "All histories.", "anchors": ["src/OpenMps/Computer.hpp: Computer::SearchNeighbor", "src/OpenMps/Particle.hpp: Particle::Disable"]}
{"id": "C11", "title": "Particles are disabled exactly when they leave the grid", "statement": "A step disables an enabled particle exactly when, at the beginning of the step, its position is below MinX or at or above MinX + (ceil((MaxX-MinX)/NeighborLength)+2)*NeighborLength on some axis. In particular a particle inside [MinX, MaxX] is never disabled; but a particle above MaxX by less than two blocks is NOT disabled.", "quantifier": "every configuration, every box with MinX <= MaxX, NeighborLength > 0 (exact arithmetic)", "why_tests_cant": "Boundary behaviour over all reals.", "anchors": ["src/OpenMps/Computer.hpp: Computer::SearchNeighbor", "src/OpenMps/Grid.hpp: Grid constructor, Grid::Store"]}
{"id": "C12", "title": "Simulation time is the sum of the steps taken", "statement": "GetEnvironment().T() starts at 0 and after any history equals the sum of the time steps of all ForwardTime calls, including a call that threw; with positive steps it is strictly increasing.", "quantifier": "every history of calls", "why_tests_cant": "All histories, including failing steps.", "anchors": ["src/OpenMps/Environment.hpp: Environment::SetNextT, T, Dt", "src/OpenMps/Computer.hpp: Computer::ForwardTime"]}
{"id": "C13", "title": "The automatic time step satisfies the CFL limits", "statement": "ForwardTime() with at least one particle uses a step dt with 0 < dt <= MaxDt and |u_i|*dt <= MaxDx (= courant*l_0) for every particle i, and it is the largest such step. With no particle at all the call is undefined behaviour.", "quantifier": "every non-empty particle list with arbitrary velocities, MaxDt > 0, MaxDx > 0 (exact arithmetic)", "why_tests_cant": "Maximum over an arbitrary list.", "anchors": ["src/OpenMps/Computer.hpp: Computer::DetermineDt, Computer::ForwardTime"]}
{"id": "C14", "title": "Non-fluid particles follow the wall callback exactly", "statement": "After a successful step every particle that is not fluid (wall, dummy, disabled) is at positionWall(i, t_new, dt) with velocity (new position - old position)/dt; positionWallPre is called once per step, before any positionWall call, with the same t_new and dt, and no later phase of the step moves a non-fluid particle.", "quantifier": "every configuration, any callback, any arithmetic", "why_tests_cant": "All phases of the step, all configurations and callbacks.", "anchors": ["src/OpenMps/Computer.hpp: Computer::ComputeExplicitForces, ModifyByPressureGradient, DynamicStabilize"]}
{"id": "C15", "title": "Walls that do not move stay put", "statement": "With the main program's callback (initial position) every wall or dummy particle stays at its initial position over any number of steps and has zero velocity after each step; in every file the main program writes, row i belongs to particle i of the input file and shows such a particle at its input position.", "quantifier": "every history of steps with dt != 0 (exact arithmetic for the velocity, any arithmetic for the position)", "why_tests_cant": "Unbounded number of steps.", "anchors": ["src/OpenMps/Main.cpp: main (positionWall)", "src/OpenMps/Computer.hpp: Computer::ComputeExplicitForces"]}
{"id": "C16", "title": "Pressures are never negative", "statement": "After a successful step the pressure of every wall and fluid particle is not negative; the implicit step leaves the pressure of dummy and disabled particles unchanged.", "quantifier": "every configuration, solver result and schedule (any arithmetic: not less than zero)", "why_tests_cant": "Whatever the solver returned.", "anchors": ["src/OpenMps/Computer.hpp: Computer::ComputeImplicitForces"]}
{"id": "C17", "title": "Number density is the all-pairs weight sum, floored at n0 with SPP", "statement": "After the density computation that follows a neighbour search, the reported N of every fluid and wall particle equals max(n0, sum over all other enabled particles of W(distance, r_e)) with SPP and the plain sum without SPP; dummy and disabled particles keep their N.", "quantifier": "every configuration (exact arithmetic)", "why_tests_cant": "Equivalence with the all-pairs formula for every configuration.", "anchors": ["src/OpenMps/Computer.hpp: Computer::ComputeNeighborDensities, AccumulateNeighbor", "src/OpenMps/Particle.hpp: Particle::W"]}
{"id": "C18", "title": "A step depends only on the visible state", "statement": "The outcome of ForwardTime(dt) (including whether it throws) and the resulting Particles() and T() depend only on the particles, T, the parameters and the wall callback: stale grid contents, neighbour tables, velocity/ECS/position buffers and old linear-system contents from earlier or failed steps never influence the result.", "quantifier": "every pair of internal states with the same visible state, any arithmetic", "why_tests_cant": "Quantifies over all stale buffer contents.", "anchors": ["src/OpenMps/Computer.hpp: Computer::ForwardTime and every phase"]}
{"id": "C19", "title": "Results do not depend on the OpenMP schedule", "statement": "No parallel loop of a step has a data race, and for every way the single memory accesses of the iterations of the parallel loops are interleaved, a step ends with the same particles, time and outcome as the serial execution, bit for bit.", "quantifier": "every interleaving of the loads and stores (and, coarser, of the read and commit phases) of the iterations of every parallel loop, every memory content, any arithmetic", "why_tests_cant": "The number of interleavings is astronomically large; tests see a few.", "anchors": ["src/OpenMps/Computer.hpp: OMP_PARALLEL_FOR loops in SearchNeighbor, ComputeNeighborDensities, ComputeErrorCorrection, ComputeExplicitForces, ComputeImplicitForces, SetPressurePoissonEquation, ModifyByPressureGradient, DynamicStabilize"]}
{"id": "C20", "title": "Disabled particles are inert", "statement": "For a given dt, the state after ForwardTime(dt) of all enabled particles does not depend on position, velocity, pressure or density of disabled particles. The automatic step of ForwardTime() does depend on the velocity of disabled particles.", "quantifier": "every configuration and every change of disabled particles", "why_tests_cant": "Non-interference over all configurations.", "anchors": ["src/OpenMps/Computer.hpp: Computer::SearchNeighbor, AccumulateNeighbor, DetermineDt"]}
{"id": "C21", "title": "Viscosity conserves momentum and dissipates energy", "statement": "For a population of fluid particles only, the viscous accelerations of a step sum to zero (so the accelerations sum to the number of particles times gravity), and the viscous power (sum of u_i . a_i) is never positive.", "quantifier": "every configuration of fluid particles with pairwise distinct positions (exact arithmetic)", "why_tests_cant": "Double sum over an arbitrary population.", "anchors": ["src/OpenMps/Computer.hpp: Computer::ComputeExplicitForces"]}
{"id": "C22", "title": "Pressure forces conserve momentum between particles", "statement": "For a population of fluid particles only, the velocity corrections of the pressure-gradient step sum to the contribution of the virtual free-surface (SPP) particles alone; without SPP (or where every particle has full density) they sum to zero.", "quantifier": "every configuration of fluid particles and pressures (exact arithmetic)", "why_tests_cant": "Double sum over an arbitrary population.", "anchors": ["src/OpenMps/Computer.hpp: Computer::ModifyByPressureGradient"]}
{"id": "C23", "title": "Dynamic stabilisation repels and conserves momentum", "statement": "The artificial repulsion (DS) acts only between particles closer than l_0 - MaxDx, pushes each pair apart along their relative position before the pressure step, with equal and opposite velocity corrections, and its square root is always taken of a positive number.", "quantifier": "every configuration (exact arithmetic)", "why_tests_cant": "Geometric inequality over all reals plus double sum.", "anchors": ["src/OpenMps/Computer.hpp: Computer::DynamicStabilize, SaveX"]}
{"id": "C24", "title": "The pressure matrix is a symmetric graph Laplacian", "statement": "The assembled coefficient matrix is symmetric, has non-negative off-diagonal entries, non-positive diagonal on fluid/wall rows, row sums that are minus the SPP weight (zero without virtual particle), rows of dummy and disabled particles are identity rows, and it is negative semidefinite on vectors supported on fluid/wall particles.", "quantifier": "every configuration (exact arithmetic)", "why_tests_cant": "Structural property of a matrix of arbitrary size.", "anchors": ["src/OpenMps/Computer.hpp: Computer::SetPressurePoissonEquation"]}
{"id": "C25", "title": "The pressure solver never returns an unconverged solution", "statement": "If SolvePressurePoissonEquation returns normally, then |b - A x| <= eps * |b - A x_initial| holds for the returned x; otherwise it throws; it always stops after at most n iterations. A breakdown (division by zero) never leads to a normal return.", "quantifier": "every matrix, right-hand side, initial guess, tolerance and size (exact arithmetic with an explicit undefined value for division by zero)", "why_tests_cant": "Loop invariant over every matrix of every size.", "anchors": ["src/OpenMps/Computer.hpp: Computer::SolvePressurePoissonEquation"]}
{"id": "C26", "title": "The pressure solver succeeds on definite systems", "statement": "If the matrix is symmetric and definite (positive or negative) on the subspace the residual lives in and eps != 0, the solver never throws: it converges within as many iterations as there are unknowns.", "quantifier": "every symmetric definite matrix of every size, every right-hand side and initial guess (exact arithmetic)", "why_tests_cant": "The finite-termination theorem of conjugate gradients, over all sizes.", "anchors": ["src/OpenMps/Computer.hpp: Computer::SolvePressurePoissonEquation"]}
{"id": "C27", "title": "The pressure equation is solvable whenever every fluid body has a free surface", "statement": "If every particle of the interaction graph is connected to one with a virtual SPP particle, the pressure system assembled in a step is negative definite on fluid/wall particles and the step does not throw a solver exception.", "quantifier": "every configuration (exact arithmetic)", "why_tests_cant": "Graph-connectivity argument over arbitrary graphs.", "anchors": ["src/OpenMps/Computer.hpp: SetPressurePoissonEquation, SolvePressurePoissonEquation, ComputeImplicitForces"]}
{"id": "C28", "title": "n0 is the density of the full reference lattice", "statement": "N0() equals the weight sum over all other points of the infinite square (cubic) lattice of pitch l_0 within r_e, although the code's loops exclude index +range; it does not depend on l_0, and is positive exactly when r_eByl_0 > 1.", "quantifier": "every l_0 > 0 and r_eByl_0 (exact arithmetic)", "why_tests_cant": "Infinite lattice, all real radii.", "anchors": ["src/OpenMps/Environment.hpp: Environment constructor"]}
{"id": "C29", "title": "The weight function is a proper kernel", "statement": "W(r, r_e) is never negative, is zero exactly outside 0 < r < r_e, strictly decreasing inside, and tends to 0 at r_e.", "quantifier": "all real r and r_e (exact arithmetic); non-negativity with any rounding that is monotone", "why_tests_cant": "All reals.", "anchors": ["src/OpenMps/Particle.hpp: Particle::W"]}
{"id": "C30", "title": "CSV input depends only on the named columns", "statement": "InputFromCsv accepts a text whose first non-empty line names each required column; it returns one particle per non-blank later line with the fields taken from the named columns, independent of column order, blanks and tabs. Unknown or missing column names raise an error before any particle is created; a text without non-empty line is undefined behaviour.", "quantifier": "every text and every number syntax accepted by the conversion functions", "why_tests_cant": "All texts, all column permutations.", "anchors": ["src/OpenMps/Main.cpp: InputFromCsv, LoadParticles"]}
{"id": "C31", "title": "An output file can be read back", "statement": "Reading with InputFromCsv the file written by OutputToCsv gives the same number of particles in the same order with the same types and with every field equal to the parsed printed value.", "quantifier": "every particle list, any number printing/parsing pair whose texts contain no separator", "why_tests_cant": "All particle lists.", "anchors": ["src/OpenMps/Main.cpp: OutputToCsv, InputFromCsv"]}
{"id": "C32", "title": "Output files are numbered consecutively and written at the right times", "statement": "A run without exception writes exactly ceil((EndTime-StartTime)/OutputInterval)+1 files, numbered consecutively from ceil(StartTime/OutputInterval), the k-th after the first time step at which the elapsed time reached k*OutputInterval and before it exceeds it by a full MaxDt; at least minStepCountPerOutput steps are taken between two outputs.", "quantifier": "every condition, every sequence of step sizes 0 < dt <= MaxDt (exact arithmetic)", "why_tests_cant": "All sequences of step sizes.", "anchors": ["src/OpenMps/Main.cpp: main, OutputToCsv, LoadEnvironment"]}
{"id": "C33", "title": "A solver failure stops the run cleanly, a grid overflow does not", "statement": "If a time step throws the solver exception, the run prints an error, writes no further file and ends normally with all earlier files in place; a 'Too many particle in a block' exception is not caught by main and terminates the program.", "quantifier": "every point of the run at which the exception occurs", "why_tests_cant": "All crash points.", "anchors": ["src/OpenMps/Main.cpp: main", "src/OpenMps/Computer.hpp: Computer::Exception", "src/OpenMps/Grid.hpp: Grid::Exception"]}
{"id": "C34", "title": "Particle numbering does not matter", "statement": "Adding the same particles in another order (with the wall callback renumbered accordingly) gives the same particles after a step, in the other order.", "quantifier": "every configuration and every permutation (exact arithmetic)", "why_tests_cant": "All permutations.", "anchors": ["src/OpenMps/Computer.hpp: Computer::ForwardTime"]}
{"id": "C35", "title": "Translation invariance", "statement": "Shifting all particles, the computational box and the wall callback by the same vector shifts all resulting positions by that vector and changes nothing else.", "quantifier": "every configuration, every shift vector (exact arithmetic)", "why_tests_cant": "All shifts.", "anchors": ["src/OpenMps/Computer.hpp: Computer::ForwardTime"]}
{"id": "C36", "title": "An isolated fluid particle falls freely", "statement": "A fluid particle with no other enabled particle within NeighborLength moves by u' = u + g dt, x' = x + u' dt. In terms of the constructor arguments: the horizontal velocity is unchanged, the vertical one decreases by g*dt, and after N steps of size dt alone the particle is at x0 + N*dt*u0 + N(N+1)/2*dt^2*G.", "quantifier": "every configuration around it (exact arithmetic)", "why_tests_cant": "All configurations of the others.", "anchors": ["src/OpenMps/Computer.hpp: Computer::ForwardTime"]}
{"id": "C37", "title": "One neighbour search per step is enough", "statement": "If since the neighbour search no two enabled particles have approached each other by more than 2*courant*r_e, every pair closer than r_e is still in each other's lists, so the later phases of the step still sum over all particles within r_e. With walls at rest, no viscosity, r_e >= 1.5 l_0 and the automatic time step this holds for the phases up to the pressure gradient.", "quantifier": "every configuration and displacement (exact arithmetic)", "why_tests_cant": "All configurations and motions.", "anchors": ["src/OpenMps/Computer.hpp: Computer::ForwardTime (comment at SearchNeighbor), AccumulateNeighbor", "src/OpenMps/Environment.hpp: NeighborLength, MaxDt, MaxDx"]}
{"id": "C38", "title": "Gradient-correction matrix inversion", "statement": "InvertMatrix returns the inverse of every invertible 2x2 matrix and of every invertible symmetric 3x3 matrix (and the scaled identity for singular ones); for non-symmetric 3x3 matrices it returns the transposed inverse.", "quantifier": "all real matrices (exact arithmetic)", "why_tests_cant": "All matrices.", "anchors": ["src/OpenMps/Computer.hpp: Detail::InvertMatrix"]}
{"id": "C39", "title": "Explicit pressure is a monotone equation of state", "statement": "With PRESSURE_EXPLICIT the pressure of a particle is zero if its density is at most n0 and c^2 rho0 (n/n0 - 1) otherwise, hence non-negative and monotone in n.", "quantifier": "all densities, rho0, c, n0 > 0 (exact arithmetic)", "why_tests_cant": "All reals.", "anchors": ["src/OpenMps/Computer.hpp: Computer::ComputeImplicitForces (PRESSURE_EXPLICIT)"]}
{"id": "C40", "title": "A failed step can be followed by further steps", "statement": "When ForwardTime throws, the population is intact (same particles, types only changed to Disabled, time advanced by dt), and a later ForwardTime behaves exactly as on a fresh computer with those particles and that time; a grid overflow leaves positions, velocities, pressures and densities of all particles unchanged.", "quantifier": "every configuration and both exceptions, any arithmetic", "why_tests_cant": "All crash points.", "anchors": ["src/OpenMps/Computer.hpp: Computer::ForwardTime, SolvePressurePoissonEquation", "src/OpenMps/Grid.hpp: Grid::Store"]}
{"id": "C41", "title": "Positions advance by the new velocity", "statement": "After a successful step every particle, of whatever type, satisfies x' = x + u' * dt: the reported velocity is exactly the displacement of the step divided by dt.", "quantifier": "every configuration, population, history and dt != 0 (exact arithmetic)", "why_tests_cant": "Quantifies over all states; several phases correct position and velocity separately and must stay consistent.", "anchors": ["src/OpenMps/Computer.hpp: ComputeExplicitForces, ModifyByPressureGradient, DynamicStabilize, ForwardTime"]}
{"id": "C42", "title": "A time step computes the published formulas", "statement": "After a successful ForwardTime(dt) the types, positions, velocities, pressures and number densities of all particles are exactly those given by closed formulas (sums over all interacting pairs, without grid, neighbour lists, buffers, loops or schedule): particles outside the grid disabled; fluid accelerated by gravity and viscosity, others placed by the callback; densities; pressures from the equation of state or from the conjugate gradient solution of the pressure equation with free-surface, SPP, HS, HL and ECS terms, cut off at zero; velocity and position corrected by the pressure gradient (with or without GC) and by dynamic stabilisation. Thus the step is a function of the visible scene alone. The outcome is determined as well: the step throws 'Too many particle in a block' exactly when some cell of the grid holds more enabled particles than its capacity, otherwise the solver's exception exactly when the conjugate gradient method for these formulas misses its tolerance, otherwise it returns.", "quantifier": "all options, populations, histories, schedules, callbacks and dt, two and three dimensions (exact arithmetic)", "why_tests_cant": "An example run cannot distinguish a wrong term from a right one for every configuration; the formula must hold for all positions, types and options.", "anchors": ["src/OpenMps/Computer.hpp: Computer::ForwardTime, AccumulateNeighbor, ComputeNeighborDensities, ComputeErrorCorrection, ComputeExplicitForces, SetPressurePoissonEquation, ComputeImplicitForces, ModifyByPressureGradient, DynamicStabilize"]}
{"id": "C43", "title": "No division by zero: finite numbers stay finite", "statement": "A computer built from sensible finite arguments (l_0 > 0, r_e > l_0, Courant number, MaxDt > 0, rho != 0, g >= 0, c > 0 in explicit mode) and driven by calls with finite arguments holds finite positions, velocities, pressures and densities for ever, provided that at each step (dt != 0) no two enabled particles are at the same place, at its beginning and after its first stage. No such step divides by zero, takes the root of a negative number or converts a non-finite number to a block index; it succeeds with the result of exact arithmetic, or throws because the solver failed or because a block of the grid is full, and even then all numbers are finite. If moreover every body of fluid has a free surface, no two particles are closer than the crowding limit and the tolerance is not zero, it succeeds.", "quantifier": "all options, populations, histories of calls, schedules, callbacks with finite values, two and three dimensions (exact arithmetic with checked division and root)", "why_tests_cant": "A denominator is zero only for exceptional configurations that no finite set of runs hits; absence must hold for every configuration and every option.", "anchors": ["src/OpenMps/Computer.hpp: Computer::ForwardTime, AccumulateNeighbor, ComputeErrorCorrection, ComputeExplicitForces, SetPressurePoissonEquation, SolvePressurePoissonEquation, InvertMatrix, ModifyByPressureGradient, DynamicStabilize, DetermineDt", "src/OpenMps/Environment.hpp: Environment::Environment"]}
{"id": "C44", "title": "Physics does not depend on the frame of reference", "statement": "If two computers, whatever each has done before, show the same scene up to a rotation, a mirror image, a shift and a constant relative velocity (with gravity rotated and the wall motion transformed accordingly), then the next ForwardTime(dt) leaves both showing the same scene in the same relation (shifted further by the relative velocity times dt): same types, pressures and densities, transformed positions and velocities; or the solver fails in both. The same holds for any number of steps. The time step chosen by ForwardTime() is the same in frames at relative rest. The axis-parallel grid leaves no trace, as long as the same particles lie inside it and no cell overflows.", "quantifier": "all orthogonal matrices, shifts and velocities, all options (CENTRAL_GRAVITY: frames with the same centre), populations, histories, schedules, dt != 0, two and three dimensions (exact arithmetic)", "why_tests_cant": "A test compares one rotated scene, within rounding; independence of the frame must hold for every scene, every frame and every combination of options.", "anchors": ["src/OpenMps/Computer.hpp: Computer::ForwardTime, AccumulateNeighbor, ComputeExplicitForces, SetPressurePoissonEquation, ModifyByPressureGradient, DynamicStabilize, DetermineDt, SearchNeighbor", "src/OpenMps/Grid.hpp: Grid::Store, Grid::cbegin"]}
{"id": "C45", "title": "The configuration file is read as written", "statement": "Every parameter of a run (start and end time, output interval, tolerance, l_0, Courant number, gravity, density, viscosity, r_e/l_0, surface ratio, speed of sound, bounds of the box, steps per output) is the number in the attribute 'value' of the element of its own name in its own section; the particles are the text of <particles type=\"csv\">. The order of sections and elements, comments, additional elements and parameters unused by the compiled options do not matter. If a needed element is missing or is not a number, the file cannot be read or the type of the particles is not csv, the program ends before it writes any file. The only exception: without the attribute type the behaviour is undefined.", "quantifier": "all documents, options, conversions of texts to numbers, command lines, two and three dimensions", "why_tests_cant": "A swapped pair of parameters or a dependence on order shows only for documents that differ in the right place; the statement is about every document.", "anchors": ["src/OpenMps/Main.cpp: LoadCondition, LoadEnvironment, LoadParticles, main"]}
{"id": "C46", "title": "Viscosity takes energy out of the flow", "statement": "In a step without gravity in which no pressure arises and no particles are close enough for dynamic stabilisation, with walls at rest and dt within the diffusion limit (dt nu times the sum of the Laplacian coefficients of a particle is at most 1), the kinetic energy of the fluid does not grow; and no fluid particle becomes faster than the fastest particle was before (whether or not the walls are at rest).", "quantifier": "all options, populations, histories, schedules and dt within the limit, two and three dimensions (exact arithmetic)", "why_tests_cant": "Stability of an explicit viscous step is a statement about every configuration of particles and velocities; a test observes decay in a few.", "anchors": ["src/OpenMps/Computer.hpp: Computer::ComputeExplicitForces, Viscosity, AccumulateNeighbor", "src/OpenMps/Environment.hpp: Environment::N0, Lambda"]}
{"id": "C47", "title": "Rounding loses no neighbour", "statement": "In an arithmetic in which every operation is accurate to a relative error of 2^-50 (double is), including underflow and overflow, in a grid of up to 2^20 blocks per axis: after the neighbour search of a time step the list of an enabled particle contains every other enabled particle whose exact distance is at most (1 - 2^-26) search radii and none whose exact distance is at least (1 + 2^-26) search radii. In particular, with a Courant number of at least 2^-20, every particle within the radius of influence r_e is found: the factor 1 + 2 C in the search radius dominates all rounding errors. The relation of being neighbours is exactly symmetric.", "quantifier": "all rounded arithmetics satisfying the standard model, all histories, populations, schedules, two and three dimensions", "why_tests_cant": "Whether a particle near a block boundary is lost to rounding depends on the last bits of two coordinates; tests cannot visit all pairs of doubles.", "anchors": ["src/OpenMps/Grid.hpp: Grid::Block, Store, Iterator", "src/OpenMps/Computer.hpp: Computer::SearchNeighbor, R", "src/OpenMps/Environment.hpp: Environment::NeighborLength"]}
{"id": "C48", "title": "Results do not depend on the units", "statement": "A program that constructs an environment and a computer and performs any calls (adding particles, fixed and automatic time steps) gives the same results as the program with all arguments expressed in other units of length, time and density (gravity, viscosity, speed of sound, box, positions, velocities, pressures, time steps and wall positions converted accordingly): after every step the positions, velocities, pressures, time are the converted ones, types and number densities are equal, the automatic time step is the same time, and the same exception is thrown if one is thrown. All options and both pressure modes. With SPP the code compares one length with the pure number 2^-52; the statement then assumes that this comparison has the same outcome.", "quantifier": "all positive conversion factors for length, time and density; all environments, particle sets, sequences of calls, wall motions, schedules, options; two and three dimensions", "why_tests_cant": "A dimensionally wrong term can agree with the right one for the units of the tests; the claim is for all factors and whole histories.", "anchors": ["src/OpenMps/Environment.hpp: Environment::Environment", "src/OpenMps/Computer.hpp: Computer::ForwardTime, DetermineDt, AccumulateInteraction", "src/OpenMps/Grid.hpp: Grid::Store"]}
{"id": "C49", "title": "The neighbour search in 64-bit arithmetic on flat memory", "statement": "In any reachable computer, the neighbour search as compiled (array and table as flat row-major buffers, counters and iterator positions as wrapping 64-bit words, array indices as 64-bit signed integers) neither overflows nor touches memory outside its buffers, whatever the buffers contained before, provided the block number of each particle is a representable integer; it disables exactly the particles, reports a full block exactly when, and leaves for each enabled particle exactly the neighbour list, of the search with unbounded numbers, whatever the order of the parallel iterations. In 3-D, a box with more blocks along x than along y makes the clearing of the array write behind the end of its buffer.", "quantifier": "all environments for which the array and the table can be allocated, all histories of calls, all contents of memory, all orders of the iterations, every scalar arithmetic, 2-D and 3-D", "why_tests_cant": "An overflowing index or an aliased element shows only for particular sizes and memory contents; tests cannot cover 2^64 of them.", "anchors": ["src/OpenMps/Grid.hpp: Grid::Grid, Clear, Store, Iterator, cbegin", "src/OpenMps/Computer.hpp: SearchNeighbor, Neighbor, NeighborCount, AddParticles"]}
{"id": "C50", "title": "Store may be called from several threads", "statement": "Any number of threads may call Grid::Store on the same grid at the same time, with omp atomic capture as well as with locks (ATOMIC_LOCK). The calls are linearizable: once the calls in progress have ended, the grid and the result of each call (true, false or exception) are those of making the calls one after the other in some order that respects the order of each thread and the order of calls that do not overlap. There is no data race and no deadlock. Starting from a cleared grid, a block that can hold its particles ends up with exactly their numbers, and some call throws exactly if some block gets more particles than it can hold. With locks, in 2-D and in 3-D boxes with as many blocks along y as along x, every lock is initialised exactly once before use, different blocks have different locks, and each is destroyed exactly once; in other 3-D boxes Store uses uninitialised locks or the constructor is undefined.", "quantifier": "all interleavings of the memory accesses and lock operations of any number of threads with any calls; both ways of counting; every arithmetic", "why_tests_cant": "A lost update or a doubly used slot needs a particular interleaving, which a test cannot force.", "anchors": ["src/OpenMps/Grid.hpp: Grid::Grid, ~Grid, Grid::Store, locks"]}
{"id": "C51", "title": "Pressure exerts no torque", "statement": "In a step without gradient correction in which all enabled particles are fluid and none has a virtual surface particle, the velocity changes other than those by viscosity and gravity (pressure gradient and dynamic stabilisation) have no total moment about the new positions. For an inviscid fluid the angular momentum therefore changes only by the torque of gravity and by the second-order term dt u' x u of the time integration. (Viscosity does exert a torque: its forces are not along the line between the particles.)", "quantifier": "all histories of calls, all particle configurations, velocities and pressures, all schedules, all steps dt, 2-D and 3-D, with and without dynamic stabilisation, implicit and explicit", "why_tests_cant": "A test checks the balance for a few configurations and up to rounding; the cancellation must hold for every configuration.", "anchors": ["src/OpenMps/Computer.hpp: ModifyByPressureGradient, DynamicStabilize, ForwardTime"]}
{"id": "C52", "title": "Runs can be continued from their files", "statement": "A computation can be handed over to a new computer: given the same environment arguments and the particles of the old one, it answers every further call like the old one (same particles, same exceptions), although its clock starts again at zero, if the position callbacks do not look at the clock. Consequently the program started again with one of its own output files as input (numbers printed exactly, same parameters) takes the same steps as the first run did after that file, and if that file was written exactly at its nominal time, writes the same files with the same numbers and times - until a further particle leaves the region: such a particle is put where it was in the input of the run, so the two runs differ from then on.", "quantifier": "all histories, all files of all runs, all further sequences of calls, all schedules of either run, 2-D and 3-D, all build options", "why_tests_cant": "A test restarts a few runs from a few files; any state of the computer that is not in the file (or not rebuilt from it) would only show in some of them.", "anchors": ["src/OpenMps/Main.cpp: main, OutputToCsv, LoadParticles, CreateComputer", "src/OpenMps/Computer.hpp: Computer, AddParticles, ForwardTime"]}
{"id": "C53", "title": "Numbers in files keep six digits", "statement": "Every number in an output file is a decimal with six significant digits, and no other such decimal is nearer to the computed value (six-digit values are shown exactly). The conversion used for reading gives for every decimal text the double nearest to the number shown. So reading an output file gives the same particles in the same order with the same types, every coordinate, velocity, pressure and density within 5e-6 (relative, plus twice the precision of doubles) of the value that was written; writing them again gives the same text, character for character, so nothing more is lost by further round trips; and the program started again with one of its files begins by writing this very file again.", "quantifier": "all values in the range of doubles, all files of all runs, 2-D and 3-D, all schedules, every conversion to doubles with a relative error of at most 1e-7", "why_tests_cant": "Whether a number is laid out and rounded correctly depends on each of its digits and on its exponent (ties, carries into a new digit, switches between fixed and scientific notation); tests see a few values.", "anchors": ["src/OpenMps/Main.cpp: OutputToCsv, LoadParticles, main", "src/OpenMps/stov.hpp: stov"]}
{"id": "C54", "title": "Output files are kept apart and sort in time order", "statement": "Different output numbers give different file names; up to number 99999 the alphabetical order of the names is the order of the outputs (from 100000 on it is not); no run writes one of its files twice, so at the end each file holds the text that was written for its number.", "quantifier": "all output numbers, all runs with all inputs, however they end", "why_tests_cant": "A test lists the files of a few short runs; name collisions or a wrong order would show only at some numbers.", "anchors": ["src/OpenMps/Main.cpp: OutputToCsv, main"]}
{"id": "C55", "title": "Runs of moved scenes, and symmetric scenes stay symmetric", "statement": "If a scene is rotated, mirrored, shifted and renumbered in a way gravity does not notice, then the automatic time step is the same and every run of the moved scene (given or automatic time steps, any schedules) shows, after each step, the run of the original scene moved in the same way. In particular a scene that is mirror- or rotation-symmetric (with matching walls) stays exactly symmetric as long as particles stay in the region of the grid.", "quantifier": "all rotations, reflections, shifts and renumberings, all scenes, options, histories, step sequences and schedules", "why_tests_cant": "A test compares a few scenes with a few mirror images; a formula that prefers one axis or one particle number can agree on them.", "anchors": ["src/OpenMps/Computer.hpp: ForwardTime, DetermineDt, ComputeExplicitForces, ModifyByPressureGradient, DynamicStabilize, ComputeNeighborDensities, ComputeImplicitForces", "src/OpenMps/Environment.hpp: Environment"]}
{"id": "C56", "title": "The build without OpenMP computes the same", "statement": "A program compiled without OpenMP, whose pressure-equation assembly is different code (each coefficient is written into the matrix while the neighbours are visited, there is no intermediate buffer and no transfer loop, and the loops are plain for loops), has for every call sequence the same outcomes, the same exceptions and bit-for-bit the same particles, matrix, right-hand side and other members as the OpenMP build under any schedule.", "quantifier": "all numbers of particles, all states, all options, all arithmetics (rounded or exact), all call sequences (AddParticles, ForwardTime(dt), ForwardTime(), with exceptions caught), all schedules of the OpenMP build", "why_tests_cant": "a test compiles one of the two variants and runs one schedule on some scenes; equality of two programs over all scenes and schedules needs a proof", "anchors": ["src/OpenMps/Computer.hpp: SetPressurePoissonEquation (#ifdef _OPENMP / #else)", "src/OpenMps/Computer.hpp: AccumulateNeighbor", "src/OpenMps/Computer.hpp: OMP_PARALLEL_FOR"]}
{"id": "C57", "title": "Implicit pressures are those of the pressure equation, to within the tolerance", "statement": "In a scene in which no two enabled particles coincide at the pressure computation, the discrete pressure equation determines the pressure of every particle that belongs to a body of fluid with a free surface: a solution exists and is unique there (single drops have an equation without pressure; in a closed body without free surface the level of the pressure is open). If moreover no block of the grid overflows and every particle whose pressure is an unknown belongs to such a body or is a single drop, the step succeeds. Where a body is nowhere expanded its exact pressures are not negative, where it is nowhere compressed they are not positive, more compression anywhere gives higher pressure everywhere in the body, and there is no pressure peak without compression. After a successful implicit ForwardTime(dt) the reported pressure P() of every such particle differs from the exact one, cut off at zero, by at most eps times the initial residual times the response of the body to a unit source, and is exactly 0 for surface particles.", "quantifier": "all scenes, histories, options, dt, tolerances eps != 0 and schedules, in exact arithmetic", "why_tests_cant": "a test compares single scenes with a solution computed by the same kind of solver; existence, uniqueness, monotonicity and the error bound are statements about all scenes", "anchors": ["src/OpenMps/Computer.hpp: SetPressurePoissonEquation", "src/OpenMps/Computer.hpp: SolvePressurePoissonEquation", "src/OpenMps/Computer.hpp: ComputeImplicitForces", "src/OpenMps/Computer.hpp: CreateSppParticle"]}
{"id": "C58", "title": "The discrete operators are exact on the reference lattice", "statement": "For a particle inside the fluid whose neighbours sit at all points within r_e of the cubic lattice of pitch l_0 (the arrangement n0 and lambda are computed from): if the pressures are linear in the position with gradient g, a step changes its velocity by exactly -dt/rho g and its position by -dt^2/rho g, with every combination of options; if the velocities are polynomials of degree two, the viscous acceleration is nu times the Laplacian of the velocity (with HL times a factor that depends on r_e/l_0 only), so that uniform and shear flow feel none; the left side of the pressure equation is the Laplacian (same factor); and the right side of HS is a negative multiple of the divergence of the flow.", "quantifier": "all scenes and histories, all particles surrounded by the lattice, all r_e/l_0 > 1, both dimensions, all linear/quadratic fields, all options and schedules, in exact arithmetic", "why_tests_cant": "a test checks one lattice size and one field with a tolerance that hides a wrong constant; exactness for every r_e and every polynomial field is a statement about lattice sums", "anchors": ["src/OpenMps/Computer.hpp: ComputeImplicitForces, ComputeExplicitForces, ModifyByPressureGradient, SetPressurePoissonEquation, R, Particle::W", "src/OpenMps/Environment.hpp: constructor (N0, Lambda)"]}
{"id": "C59", "title": "HS takes the derivative of the density, GC is exact on linear pressure, in any arrangement", "statement": "With the higher-order source (HS) the right side of the pressure equation contains the exact time derivative of the number density N() along the current velocities (with SPP: of the filled-up density), so that rigid motion of the neighbourhood never counts as compression. With gradient correction (GC, no midpoint), if the pressures around a fluid particle (no dummies near) are linear in the position with gradient g and its neighbours do not all lie in one line or plane with it, a step changes its velocity by exactly -dt N()/(n0 rho) g, however the neighbours are arranged.", "quantifier": "all scenes, histories, arrangements of the neighbours (irregular, one-sided), velocities, linear fields, schedules and step sizes, both dimensions, in exact arithmetic", "why_tests_cant": "finite differences in a test have an error that hides wrong factors, and irregular arrangements cannot be enumerated", "anchors": ["src/OpenMps/Computer.hpp: NeighborDensityVariationSpeed, R, SetPressurePoissonEquation, ModifyByPressureGradient", "src/OpenMps/Computer.hpp: ComputeNeighborDensities"]}
{"id": "C60", "title": "A body without pressure keeps its shape", "statement": "Any set of particles that has no other enabled particle within the search radius, moves with one common velocity U and has no pressure (in particular fluid at rest without gravity), with walls that are moved along by the callback, keeps its shape and falls freely: after N successful steps of size dt every particle of it has the velocity U + N dt G, zero pressure, and has been displaced by N dt U + N(N+1)/2 dt^2 G, whatever happens in the rest of the scene. It must not be compressed (explicit mode: N() <= n0; implicit mode: no condition with HS, N() = n0 without HS), and with dynamic stabilisation its particles must be at least l0 - MaxDx apart. A scene consisting of one such body is never stopped by the solver.", "quantifier": "all scenes, all bodies in them, all numbers of steps, all velocities, all options, all schedules, in exact arithmetic", "why_tests_cant": "a test runs one block with tolerance; spurious forces depend on the shape of the block, on the options and on the rest of the scene, which couples to the body through the global solver", "anchors": ["src/OpenMps/Computer.hpp: ForwardTime, ComputeExplicitForces, SetPressurePoissonEquation, SolvePressurePoissonEquation, ModifyByPressureGradient, DynamicStabilize", "src/OpenMps/Computer.hpp: ComputeErrorCorrection"]}
{"id": "C61", "title": "Influence reaches no further than a few search radii", "statement": "In the explicit mode, one ForwardTime changes a particle in a way that depends only on the particles that are within four search radii (4 neighborLength) of it at the beginning of the step: two scenes at the same time, with the same callback, that agree there (however different, and however many, the other particles are) give exactly the same particle. A body of particles that stays at least a search radius away from all other enabled particles evolves in any number of explicit steps exactly as it would if the rest were not there or were different. In the implicit mode the exact solutions of the pressure equation have the same property for every particle of such a body that is in fluid with a free surface, although the solver works on the whole scene (its tolerance is global: the computed pressures differ from the exact ones within the bound of C57).", "quantifier": "all pairs of scenes, all bodies in them, all options, all numbers of steps, all schedules, in exact arithmetic", "why_tests_cant": "a test compares a few pairs of scenes; independence of the rest of the scene is a statement about all of them", "anchors": ["src/OpenMps/Computer.hpp: ForwardTime, ComputeExplicitForces, ComputeNeighborDensities, SetPressurePoissonEquation, ModifyByPressureGradient, DynamicStabilize", "src/OpenMps/Grid.hpp: Store, SearchNeighbor"]}
{"id": "C62", "title": "The centre of mass of a free body falls like a single particle", "statement": "Over any number of ForwardTime calls (steps dt_k of any size), a body of fluid that stays at least a search radius away from all other enabled particles (walls, other fluid) is not moved by its internal forces: the sum of its velocities changes by exactly |B| G sum(dt_k), and the sum of its positions follows the corresponding parabola, whatever its shape and motion and whatever happens elsewhere. Holds in the explicit and implicit mode, with every combination of HS, HL, ECS, DS, without GC and CENTRAL_GRAVITY; with SPP as long as no particle of the body is at the surface (N() > n0).", "quantifier": "all scenes, all bodies, all numbers and sizes of steps, all schedules, all covered options, in exact arithmetic", "why_tests_cant": "a test follows a few particles for a few steps with a tolerance that hides a drift", "anchors": ["src/OpenMps/Computer.hpp: ForwardTime, ComputeExplicitForces, ModifyByPressureGradient, DynamicStabilize"]}
{"id": "C63", "title": "Rounding does not spoil the number density", "statement": "In floating-point arithmetic as accurate as double, the number density a particle stores after the neighbour search of a step differs from the exact sum of the weights re/r - 1 over the enabled particles within re (exact real arithmetic, at the stored positions) by at most (k+1)(n+1)/2^41, k being the number of entries of its neighbour list; with SPP the stored value is the larger of this and n0. No pair is dropped or counted twice by rounding, including pairs at distance re.", "quantifier": "all arithmetics obeying the standard rounding model with relative error 2^-50 (underflow and overflow included), all histories and schedules, all particle sets with up to 2^20 neighbours and distances down to re/2^20", "why_tests_cant": "rounding errors depend on the digits of every coordinate and on the order of summation; a test sees a handful of sums", "anchors": ["src/OpenMps/Computer.hpp: ComputeNeighborDensities, AccumulateNeighbor", "src/OpenMps/Particle.hpp: W"]}
{"id": "C64", "title": "Short steps follow the equations of motion", "statement": "In the explicit mode, the step is a consistent time discretisation: when one and the same state is advanced by ForwardTime(dt) with dt tending to 0, (u' - u)/dt of every fluid particle tends to viscosity + gravity + pressure acceleration evaluated at the present positions (the formulas of the method, pressure from the equation of state of the present density), and (x' - x)/dt tends to u. SPP, HS, HL, ECS do not change the limit's form; DS contributes nothing as long as no pair is closer than l0 - MaxDx; GC contributes the inverse of the correction matrix.", "quantifier": "all scenes of particles apart from each other, all wall motions continuous in dt, all option combinations of the explicit mode, all schedules, in exact arithmetic", "why_tests_cant": "a limit dt -> 0 for every arrangement; finite tests see one dt and cannot tell a wrong term of size O(1) in a rarely taken branch", "anchors": ["src/OpenMps/Computer.hpp: ForwardTime, ComputeExplicitForces, ModifyByPressureGradient, DynamicStabilize, ComputeImplicitForces (MPS_EXPLICIT branch)"]}
{"id": "C65", "title": "The time step and the run in floating-point arithmetic", "statement": "With rounded (double-like) arithmetic: DetermineDt yields a finite positive dt not above MaxDt, in which no particle moves by more than (1+2^-40) MaxDx at its true speed, and no admissible step (with margin 2^-40) is longer. A run to N outputs whose accumulated time does not dwarf the steps (N*OutputInterval <= 2^36 * the smallest step) finishes after finitely many steps, at most K with K*smallest step >= 1.001*N*OutputInterval, in spite of rounding in the accumulated times; and output k is written at an elapsed time in [k*I, k*I + MaxDt] up to the relative error (k+1)*2^-48.", "quantifier": "all scenes, speeds and step limits within the range of the format, all rounding behaviours of a double-like format, all run lengths", "why_tests_cant": "rounding errors accumulate over arbitrarily many steps and for every value of the limits; a test sees one sequence of roundings", "anchors": ["src/OpenMps/Computer.hpp: DetermineDt, ForwardTime", "src/OpenMps/Environment.hpp: SetNextT", "src/Main.cpp: main loop 330-400"]}
{"id": "C66", "title": "Options act only where their condition holds", "statement": "Compile-time options have no effect outside their purpose. HS and ECS do not matter in the explicit mode and the midpoint option does not matter without GC: whatever sequence of calls is made, the exceptions and the visible states are the same. In the explicit mode without GC, SPP changes nothing but N(), which is raised to n0 where it is below: trajectories, pressures and failures are the same in every run. In all modes: SPP changes nothing in a step after which (without SPP) every active particle reports at least n0; DS changes nothing in a step that (without DS) leaves no fluid particle closer than L_0 - MaxDx to an active one; ECS changes nothing in a step that begins at the reference density (with SPP: at most the reference density).", "quantifier": "all scenes, all histories, all schedules, all other options, all wall motions, in exact arithmetic", "why_tests_cant": "two builds of the program must agree on every input of a class; tests compare them on single inputs", "anchors": ["src/OpenMps/defines.hpp", "src/OpenMps/Computer.hpp: ForwardTime, ComputeNeighborDensities, ComputeErrorCorrection, ComputeImplicitForces, SetPressurePoissonEquation, ModifyByPressureGradient, DynamicStabilize"]}
{"id": "C67", "title": "The shipped benchmark generators produce valid input", "statement": "The Python programs in Benchmark/ (StaticPressure, two dam breaks, CentralGravity) write input files that the program accepts and that describe what they are meant to: for all sizes and constants, the file is read completely and the run starts from exactly the listed particles, at rest, with the constants of the generator; the sites are a rectangle of water, a wall of one layer and three layers of dummies behind it without gap and without overlap, one particle per site of the lattice; all particles are in the grid, so the first step neither overfills a block nor disables a particle, whatever its length and the schedule; every water particle that is r_e away from the free surface, also beside walls and in corners, has exactly the reference density of the program (r_e up to 5 l_0); the first step of StaticPressure and of both dam breaks, with every schedule and every length up to the limit of the program, solves the pressure equation and returns (implicit mode; water deeper than r_e and tank wider than 2 r_e), and the program chooses the limit as its length; the script that evaluates CentralGravity computes the same reference density; runs of StaticPressure stay mirror symmetric and runs of CentralGravity stay symmetric about both axes (and the diagonal of a square). Programs compiled with PRESSURE_EXPLICIT refuse all these files, because they contain no velocity of sound.", "quantifier": "all sizes of basin and water, all physical constants, all radii of influence up to 5 l_0, all schedules, all runs (symmetry), printers and readers that understand each other", "why_tests_cant": "tests run a generator for one size; holes in a wall or a doubled particle appear only for some sizes, and exact symmetry must hold for every run and schedule", "anchors": ["Benchmark/StaticPressure/generate.py", "Benchmark/DamBreak/generate_koshizukaoka1996.py", "Benchmark/DamBreak/generate_zhouetal1999.py", "Benchmark/CentralGravity/generate.py", "Benchmark/CentralGravity/check_result.py: calculate_n0", "src/OpenMps/Main.cpp: LoadFromXml, CreateParticle, main"]}
{"id": "C68", "title": "Rounding errors do not spoil the pressure solver", "statement": "The solver never recomputes b - A x but updates a residual from round to round and stops when that one is small. In floating-point arithmetic the updated residual stays near the true one: after k rounds they differ in equation i by at most k+2 times e_i = 2^-50 ((9 m + 13) |A_i| X + 2 |b_i|) plus underflow terms, with m stored entries per row, |A_i| the sum of the absolute values of the row and X the largest number among the approximate solutions. So if the solver returns normally, the true residual of the pressures is at most (1 + 2^-26) eps times the true residual of the initial guess, plus (n+4) |e|, plus an underflow term; this holds for the solver call and for the pressures a whole step leaves behind.", "quantifier": "all matrices (also indefinite and unsymmetric), right-hand sides and initial guesses with at most 2^20 unknowns and 2^20 entries per row, all tolerances 0 < |eps| <= 1, all rounded arithmetics with relative error up to 2^-50 (IEEE double in every rounding mode) without overflow, all schedules", "why_tests_cant": "tests see single systems; the accumulated rounding error has to be bounded for every system and every number of rounds", "anchors": ["src/OpenMps/Computer.hpp: SolvePressurePoissonEquation, ComputeImplicitForces, ForwardTime"]}
{"id": "C69", "title": "The evaluation scripts compute what they claim from the program's files", "statement": "The scripts next to the benchmarks (koshizukaoka1996_edge.py, koshizukaoka1996_shape.py, zhouetal1999.py, check_result.py), started on the directory with the files of a run and called with its output interval, plot: the largest x coordinate of the fluid; the positions of all particles at 0.1 s, ..., 1 s (to within the output interval); the largest height of the particles with n > 0.1 n0 in the columns at the two gauges and the mean pressure of the wall at the sensor; roundness (from the particles with n < beta n0) and the pressure in the centre. Point k of every curve has the abscissa k * OutputInterval (scaled) and was computed from the state at that time since the start, up to one time step, in whatever order the system lists the directory. Each script fails exactly when a file contains nothing to evaluate. Two defects: with SPP (the default) no particle has a density below n0 after a step, so check_result.py finds no surface and fails from the second file on; and the condition n > 0.1 n0 of zhouetal1999.py leaves out no fluid particle, so drops that have left the fluid count as water height.", "quantifier": "all runs of the program (scenes, parameters, schedules, numbers of steps) with less than 100000 files, all orders of the directory listing, all parameters of the scripts, all ways of printing and reading numbers", "why_tests_cant": "the scripts are only ever looked at on one run; that the k-th file of the sorted listing is the state at time k * OutputInterval, that the column found by name is the right one in every file, and that a script fails only without data, are statements about all runs", "anchors": ["Benchmark/CentralGravity/check_result.py: output, main part", "Benchmark/DamBreak/koshizukaoka1996_edge.py: output, main part", "Benchmark/DamBreak/koshizukaoka1996_shape.py", "Benchmark/DamBreak/zhouetal1999.py: output, main part", "src/OpenMps/Main.cpp: OutputToCsv, main"]}
{"id": "C70", "title": "Input files are understood character by character, and never in part", "statement": "Every way of writing a configuration as XML (white space, comments, either kind of quotation mark, character references, CDATA, declarations, a byte order mark) gives the run of that configuration; no file can be understood in two ways. If the writing of an input file was interrupted at any character, the program either terminates before it has written any file or behaves as with the whole file: it never runs with some of the settings or some of the particles; a file that lacks any part of its last end tag is refused. What the generators write with toprettyxml is such a file, so the program started on it runs with the generator's constants from exactly its particles. A setting is accepted if and only if it is one decimal number with nothing but white space around it (unlike in the particles' table, where trailing characters are ignored), otherwise the program terminates before writing. Two defects: end tags are not compared with start tags, and a negative number of steps is accepted as a number near 2^64.", "quantifier": "all documents and all ways of writing them, all points at which the file may be cut off, all trees given to the writer, all texts of numbers, all compile-time options, schedules and run lengths", "why_tests_cant": "there are infinitely many layouts of the same configuration and a cut may happen at every character of every file; tests try a few files", "anchors": ["src/OpenMps/Main.cpp: main, LoadCondition, LoadEnvironment, LoadParticles", "Benchmark/StaticPressure/generate.py: toprettyxml", "Benchmark/DamBreak/generate_koshizukaoka1996.py", "Benchmark/DamBreak/generate_zhouetal1999.py", "Benchmark/CentralGravity/generate.py", "Benchmark/Sample/Sample.xml"]}
{"id": "C71", "title": "Rounding does not spoil the accelerations", "statement": "In every arithmetic as accurate as double, one step moves the particles as the formulas say, up to rounding: the new velocity of a fluid particle after the first stage is the old one plus dt times the exact acceleration at the stored numbers (viscosity in either discretisation plus gravity, over the other enabled particles closer than r_e, where rounding may only decide about distances that are r_e up to 13 digits), with an error of at most (2k+200)/2^50 times the sum of the sizes of all contributions, k being the number of neighbours; its new position is the old one plus dt times the new velocity up to three roundings. This also holds at a free surface with space potential particles: the virtual neighbour, put at a computed position, neither produces infinities or NaN nor changes the acceleration, and lies between r_e/2^14 and 4 r_e away, at r_e/(n0-n+1) up to r_e/2^25. The whole step without dynamic stabilisation moves the particles as the formulas say with the pressures of that step: the new velocity is the old one plus dt times viscosity and gravity at the state before, plus the exact push of the pressure gradient, the new position the old one plus dt times the new velocity, all up to such rounding. The change by the pressure gradient, the pressure of the equation of state and the velocity of particles that follow the callback are likewise exact up to such an error.", "quantifier": "all floating-point formats satisfying the standard error model with double's accuracy and range, all numbers and positions of particles in range and not closer than a minimum distance, all constants that are not absurd, all histories, all schedules; the first stage at any number density with or without SPP (n_0 at most 1024 and the domain at most 2^20 r_e), the pressure gradient without virtual neighbour, options CENTRAL_GRAVITY and (for the pressure gradient) GC off, for the whole step also DS off", "why_tests_cant": "a test compares a few numbers with a tolerance chosen by hand; that no cancellation, underflow or overflow destroys the result for any input is a statement about all inputs", "anchors": ["src/OpenMps/Computer.hpp: ComputeExplicitForces, ModifyByPressureGradient, ComputeImplicitForces, AccumulateNeighbor", "src/OpenMps/Particle.hpp: W"]}
{"id": "C72", "title": "double is IEEE 754 and the program in double keeps its laws", "statement": "For the arithmetic the program really uses, IEEE 754 binary64: sums, differences, products, quotients and roots are the exact results rounded to nearest, ties to even, and every assumption that C47, C63, C65, C68 and C71 make about floating-point numbers holds of it, so their conclusions hold for double: no neighbour is lost, the densities and the first stage of a step are accurate, the automatic time step respects the Courant limit, the run ends, output times are right and the solver's solution is accurate. Moreover some laws hold bit for bit in spite of rounding, overflow and NaN: the neighbour table is symmetric, the coefficients coupling two particles in the pressure equation are the same bits in both rows, and the contributions of two particles to each other's pressure gradient and viscosity are exactly opposite. NaN propagates, comparisons with NaN are false, and conversions to an index are undefined exactly for values outside the 64-bit range.", "quantifier": "all pairs of 64-bit patterns; all histories, schedules and particle data (for the accuracy statements: of reasonable size)", "why_tests_cant": "2^128 pairs of operands per operation, and all computers built from them", "anchors": ["src/OpenMps/Computer.hpp: SearchNeighbor, SetPressurePoissonEquation, ModifyByPressureGradient, ComputeExplicitForces, DetermineDt, SolvePressurePoissonEquation", "src/OpenMps/Vector.hpp: Vector", "src/OpenMps/Grid.hpp: Grid", "src/OpenMps/Makefile: CFLAGS"]}
{"id": "C73", "title": "double values in files: exact text and correctly rounded reading for every bit pattern", "statement": "Every value of type double that the program writes to a particle file is shown by a decimal text with at most six significant digits, none of which is nearer to the value, with the sign of the value (also of negative zero), or by inf / nan. Every decimal text in an input file is read as the nearest double (ties to even); the program refuses it exactly if it is beyond the range of double, or below the normal range and not exactly representable. Consequently every written number can be read back - same sign, infinity and NaN as such, finite numbers within 5e-6 - and is then written with the same characters again, except nonzero numbers below 2.225075e-308 (among them the smallest normal number), which the program writes but cannot read: a file of the program can be read back exactly if it holds no such number. A run restarted in double from one of its files begins by writing that file again, character for character (even if it contains infinities and NaN), and writes nothing if a number of that kind is in it.", "quantifier": "all 2^64 bit patterns of double, all decimal texts, all particle lists (2D and 3D), all runs, settings and schedules, every file of a run", "why_tests_cant": "tests use ordinary numbers; the claims are about every bit pattern and every text, including the exact limits of the range, ties, negative zero, infinities and NaN", "anchors": ["src/OpenMps/Main.cpp:OutputToCsv", "src/OpenMps/Main.cpp:InputFromCsv", "src/OpenMps/Main.cpp:main", "src/OpenMps/stov.hpp:stov"]}
{"id": "C74", "title": "The computed pressures solve the exact Poisson equation, up to bounds for rounding and solver", "statement": "In double (and in every arithmetic as accurate) the pressure equation of a fluid or wall particle that is not on the free surface is, at the stored positions and velocities, the discrete Poisson equation of the method up to relative errors of about 1e-13: there are coefficients exactly for the interacting particles that are neither dummies nor on the surface, equal to those of the Laplacian (standard or HL); the diagonal is minus the sum of the coefficients of all interacting particles except dummies; the right-hand side is -rho/(n0 dt) times the rate of change of the number density (standard or HS), plus the error correction with ECS. Therefore, if a time step in the implicit mode returns normally, the pressures it assigns - negative ones replaced by zero - come from numbers that satisfy the exact discrete Poisson equation of every such particle up to eps times the residual of the old pressures, the rounding errors of the solver (C68) and those of the coefficients; in particular the neighbour table, built before the first stage moved the particles, still contains every interacting particle. At the free surface, where the number density n is below n0 and SPP (the default) is on, the same holds without any condition on the density: the equation then contains one more neighbour, the virtual one, with pressure zero, at the distance r_e/(n0-n+1), unless the centre of gravity of the neighbours is the particle's own position up to rounding; and with HS and SPP the rate of change of the number density there is taken as zero.", "quantifier": "all histories, numbers of particles, positions, velocities, pressures and schedules (of reasonable size, particles at a minimum distance, moved in the first stage by less than the margin of the search radius), all options; with SPP n0 at most 2^10 and positions within 2^20 interaction radii of the origin", "why_tests_cant": "floating-point errors depend on all inputs; a test compares a few runs with a tolerance and cannot bound the error of the coefficients, of the sums over neighbours and of the solver for every computer", "anchors": ["src/OpenMps/Computer.hpp: SetPressurePoissonEquation, SolvePressurePoissonEquation, SetPressure, ComputeImplicitForces, AccumulateNeighbor"]}
{"id": "C75", "title": "Contraction into fused multiply-adds does not spoil expressions, distance tests, the neighbour search or the motion", "statement": "The Makefile compiles for the machine at hand (-march=native), so the compiler may evaluate a product followed by a sum or difference with one rounding instead of two, wherever and as often as it chooses. The fused operation is the exact x y + z rounded once, with NaN, infinities and signs of zero as in IEEE 754. Whatever the compiler chooses, every expression made of +, -, *, / and square roots has a finite value within the error bound of the evaluation operation by operation (if nothing overflows and divisors and radicands stay away from zero), so two choices differ by at most twice that bound. In particular: inner products of n numbers (also those of the solver) have a relative error below (2n+1)2^-53 of the sum of absolute values; squared distances have a relative error below 2^-49 and are never negative; the test 'closer than r_e' and the test of the neighbour search are right unless the distance is within 2^-26 of the radius; the neighbour search, with any choice in every single distance, writes for every particle a row that fits into the table, contains every other enabled particle within the radius of influence and none beyond the search radius by more than a factor 1+2^-26; and the motion x + u dt is exact up to 2^-52 (|x| + 2|u dt|).", "quantifier": "all expressions of any size, all choices of the compiler (also different ones for the same subexpression), all doubles of reasonable size, all histories, schedules, numbers of particles", "why_tests_cant": "a test runs one binary on one machine, and the choices depend on compiler, flags and processor; the error bounds are about all operands", "anchors": ["src/OpenMps/Makefile: CFLAGS", "src/OpenMps/Computer.hpp: R, AccumulateNeighbor, SearchNeighbor, ComputeExplicitForces, SolvePressurePoissonEquation"]}
