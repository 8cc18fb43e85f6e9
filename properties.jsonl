{"id": "C01", "title": "Vector algebra laws", "statement": "For every pair of three-vectors the cross product is orthogonal to both operands, is antisymmetric and obeys |a x b|^2 + (a.b)^2 = |a|^2|b|^2; normalising any non-zero vector gives a vector of length one that is a positive multiple of it; normalising the zero vector gives not-a-number components rather than a direction.", "quantifier": "all pairs of vectors; the zero vector treated separately", "why_tests_cant": "an infinite continuum of vectors; sampling misses degenerate ones", "anchors": ["Source/Tools/ThreeVector.hh: Cross, Dot, Mag, Norm"]}
{"id": "C02", "title": "Matrix inverse", "statement": "For every 3x3 matrix with non-zero determinant, multiplying it by the matrix returned by Inverse, on either side, gives the identity, and multiplying matrices then applying to a vector equals applying one after the other.", "quantifier": "all 3x3 matrices with non-zero determinant, all vectors", "why_tests_cant": "nine real parameters; a sign slip in one cofactor is invisible on sparse test matrices", "anchors": ["Source/Tools/ThreeMatrix.hh: Inverse, Determinant, operator*", "Source/Tools/ThreeVector.hh: operator*(ThreeMatrix, ThreeVector)"]}
{"id": "C03", "title": "RotateToAxis is a rotation onto the axis", "statement": "For all non-zero vectors v and axes a, the matrix returned by v.RotateToAxis(a) is a proper rotation (orthogonal, determinant one) that takes the direction of v to the direction of a.", "quantifier": "all pairs of non-zero vectors, including parallel and antiparallel ones", "why_tests_cant": "the special antiparallel branch is a measure-zero set of inputs", "anchors": ["Source/Tools/ThreeVector.hh: RotateToAxis"]}
{"id": "C04", "title": "Direction returns a unit vector", "statement": "For any two distinct points, a.Direction(b) is the unit vector that points from a to b.", "quantifier": "all pairs of distinct points", "why_tests_cant": "tests with points one unit apart cannot tell a unit vector from a difference", "anchors": ["Source/Tools/ThreeVector.hh: Direction"]}
{"id": "C05", "title": "Interior table interpolation is the piecewise linear interpolant", "statement": "For every table of at least two strictly increasing sample points and every query from the first sample point (included) to the last (excluded), Interpolate1D returns the value on the straight segment between the two samples that bracket the query; it therefore lies between the two bracketing data values and reproduces the data at every sample point but the last.", "quantifier": "all tables of any length, all queries in the half-open range", "why_tests_cant": "unbounded table length and real-valued queries", "anchors": ["Source/Tools/Numerics.cpp: Numerics::Interpolate1D"]}
{"id": "C06", "title": "Interpolation is exact at the last sample point and continuous at both ends of the table", "statement": "For every table, Interpolate1D returns the last data value when queried at the last sample point, and extrapolates continuously (as the straight continuation of the end segments) below the first and above the last sample point.", "quantifier": "all tables and all queries at or beyond the table ends", "why_tests_cant": "equality with the last sample is a single real number; the extrapolation branch needs an out-of-range query", "anchors": ["Source/Tools/Numerics.cpp: Numerics::Interpolate1D"]}
{"id": "C07", "title": "Nearest-sample lookup", "statement": "For every non-empty strictly increasing axis and every query, ArrayIndex returns a valid index whose sample is at least as close to the query as every other sample, preferring the upper one on a tie.", "quantifier": "all axes of any length, all queries, inside and outside the range", "why_tests_cant": "boundary and tie cases over a continuum", "anchors": ["Source/Tools/Numerics.cpp: Numerics::ArrayIndex"]}
{"id": "C08", "title": "Bracketing lookup", "statement": "For every strictly increasing axis of at least two points and every query within its range, ClosestPoints returns a lower index and fraction in [0,1] such that the query equals (1-f)*s[low]+f*s[low+1], and both low and low+1 are valid indices.", "quantifier": "all axes of any length and all queries in range", "why_tests_cant": "the failing interval is the last one of the table; unsigned wrap-around needs tiny axes", "anchors": ["Source/Tools/Numerics.cpp: Numerics::ClosestPoints"]}
{"id": "C09", "title": "Simpson's rule is exact on cubics", "statement": "For every equally spaced grid and every cubic polynomial, SimpsonsRule returns the exact integral.", "quantifier": "all grid sizes, grid positions, spacings and cubic polynomials", "why_tests_cant": "unbounded grid size; parity of the grid size decides correctness", "anchors": ["Source/Tools/Numerics.cpp: Numerics::SimpsonsRule"]}
{"id": "C10", "title": "Discrete sampling reaches every index in proportion to its weight", "statement": "For every list of non-negative weights with positive sum, RandDiscrete returns index i for exactly those values of the underlying uniform draw that fall in the i-th slice of the cumulative weights, so that each index, the first included, comes up with probability weight/sum.", "quantifier": "all weight lists of any length, all values of the underlying draw", "why_tests_cant": "a distributional claim: a finite number of draws cannot settle it", "anchors": ["Source/Tools/MCTools.cpp: MCTools::RandDiscrete"]}
{"id": "C11", "title": "SetSeed determines the random sequence", "statement": "After SetSeed(s), the sequence of numbers returned by all the sampling functions is determined by s, so that two runs with equal seeds agree and different MPI ranks draw different sequences because they were seeded differently.", "quantifier": "all seeds, all initial generator states, all later call sequences", "why_tests_cant": "concerns every pair of runs and the hidden generator state", "anchors": ["Source/Tools/MCTools.cpp: MCTools::SetSeed, RandDouble", "Source/Tools/MCTools.hh", "Source/Exec/QEDCASC.cpp: main"]}
{"id": "C12", "title": "Relativistic kinematics of particles", "statement": "For every momentum, a lepton of positive mass reports energy E with E^2 = m^2 + |p|^2, gamma = E/m >= 1, 0 <= beta < 1 and |p| = m*gamma*beta; a photon reports E = gamma = |p| and beta = 1.", "quantifier": "all momenta and all positive masses", "why_tests_cant": "real-valued inputs of unbounded range", "anchors": ["Source/Particles/Lepton.cpp: GetEnergy, GetGamma, GetBeta", "Source/Particles/Photon.cpp"]}
{"id": "C13", "title": "Particle list is a bounded append-only sequence", "statement": "After any sequence of additions to a particle list of capacity n, the list holds exactly the first n added particles in order; indices below GetNPart return them, and no addition changes an existing entry.", "quantifier": "all capacities and all addition sequences", "why_tests_cant": "unbounded sequences; the default capacity is a million", "anchors": ["Source/Particles/ParticleList.cpp: AddParticle", "Source/Particles/ParticleList.hh: GetNPart, GetParticle"]}
{"id": "C14", "title": "Track histories stay aligned", "statement": "After any history of pushes and processes, the position, momentum, time and gamma histories of a particle have equal length; if the particle is tracked the last entries are its current position, momentum and gamma, and if it is not tracked all four stay empty.", "quantifier": "all sequences of pushes, emissions and pair conversions, all fields and random draws", "why_tests_cant": "holds over unbounded histories", "anchors": ["Source/Particles/Particle.cpp: UpdateTrack", "Source/Particles/Particle.hh"]}
{"id": "C15", "title": "Recorded times belong to the recorded positions", "statement": "Every entry of a tracked particle's history is a snapshot: the recorded time is the time at which the particle had the recorded position.", "quantifier": "all pushes of tracked particles, all time steps", "why_tests_cant": "needs the relation between two records over every step of a history", "anchors": ["Source/Particles/Particle.cpp: UpdateTrack, UpdateTime", "Source/Physics/ParticlePushers/ParticlePusher.cpp: PushParticle"]}
{"id": "C16", "title": "Optical depth bookkeeping", "statement": "A particle starts with a non-negative optical depth; each step without an interaction lowers it by exactly the (non-negative) increment of that step; the interaction fires at the first step at which the accumulated increments exceed the initial depth and at no earlier step, and afterwards the depth is redrawn non-negative.", "quantifier": "all random draws, all sequences of increments of any length", "why_tests_cant": "a first-passage statement over unbounded histories", "anchors": ["Source/Particles/Particle.cpp: InitOpticalDepth, UpdateOpticalDepth", "Source/Physics/Processes/StochasticEmission.cpp: Interact", "Source/Physics/Processes/NonLinearBreitWheeler.cpp: Interact"]}
{"id": "C17", "title": "A source yields exactly its configured number of events, in order", "statement": "A source configured with n particles of a known type gives n successive single-particle events, the i-th built from the i-th sample of energy, direction and position; call n+1 ends the program with an error and never returns a list.", "quantifier": "all n, all samples, all numbers of calls", "why_tests_cant": "n is unbounded; the failing call is the one past the end", "anchors": ["Source/Particles/SourceGenerator.cpp: SourceGenerator::GenerateList"]}
{"id": "C18", "title": "Source beam points along the configured direction", "statement": "For every configured non-zero direction, a particle sampled with zero divergence travels along that direction.", "quantifier": "all directions", "why_tests_cant": "tests with a beam along the z axis cannot see the difference between a rotation and its inverse", "anchors": ["Source/Particles/SourceGenerator.cpp: SourceGenerator, GenerateList", "Source/Tools/ThreeVector.hh: RotateToAxis"]}
{"id": "C19", "title": "Source particles have the sampled energy", "statement": "For every sampled energy, the particle emitted by the source reports that energy.", "quantifier": "all sampled energies and particle types", "why_tests_cant": "for ultra-relativistic test energies the error is below rounding", "anchors": ["Source/Particles/SourceGenerator.cpp: GenerateList", "Source/Particles/Lepton.cpp: Lepton(mass, charge, energy, ...)"]}
{"id": "C20", "title": "Mono-energetic sources", "statement": "A source with the default energy distribution (mono) emits every particle with the configured mean energy.", "quantifier": "all energies and random draws", "why_tests_cant": "concerns every random draw", "anchors": ["Source/Particles/SourceGenerator.cpp: SourceGenerator", "Source/IO/Input/FileParser.cpp: ReadParticles"]}
{"id": "C21", "title": "Laser fields are transverse electromagnetic waves", "statement": "For every polarisation angle, position and time, the electric field of the plane and of the Gaussian laser is orthogonal to the propagation direction and to the magnetic field, has the same magnitude as it, and E x B points along the propagation direction.", "quantifier": "all directions, polarisation angles, positions and times", "why_tests_cant": "the failing polarisation angles are excluded by tests that use angle zero", "anchors": ["Source/Physics/Fields/EMField/PlaneEMField.cpp: GetField", "Source/Physics/Fields/EMField/GaussianEMField.cpp: GetField"]}
{"id": "C22", "title": "Laser field strength never exceeds the configured maximum", "statement": "For every position and time, the electric field magnitude of the plane and Gaussian laser fields is at most the configured peak field; the static field is the configured one everywhere and at all times.", "quantifier": "all positions, times and field parameters", "why_tests_cant": "a supremum over all of space-time", "anchors": ["Source/Physics/Fields/EMField/PlaneEMField.cpp", "Source/Physics/Fields/EMField/GaussianEMField.cpp", "Source/Physics/Fields/EMField/StaticEMField.cpp"]}
{"id": "C23", "title": "Laser focus lies at the configured focal point", "statement": "Shifting the start and focus points of a Gaussian or focusing laser by the same displacement shifts the whole field by that displacement; in particular the field envelope is centred on the configured focus.", "quantifier": "all start points, focus points and displacements", "why_tests_cant": "tests with the focus at the origin cannot see it", "anchors": ["Source/Physics/Fields/EMField/GaussianEMField.cpp", "Source/Physics/Fields/EMField/FocusingField.cpp"]}
{"id": "C24", "title": "Focusing pulse has finite support and its polarisation angle only rotates it", "statement": "The focusing-laser field is exactly zero wherever its pulse envelope falls below 1e-15, and changing the polarisation angle rotates the transverse field without changing its magnitude.", "quantifier": "all positions, times, polarisation angles", "why_tests_cant": "pointwise identity over a continuum", "anchors": ["Source/Physics/Fields/EMField/FocusingField.cpp: GetField"]}
{"id": "C25", "title": "Plane laser is a travelling wave", "statement": "The plane-wave field at position x and time t equals the field at x + s*k and t + s for every s, where k is the unit propagation direction, and depends on position only through k.x.", "quantifier": "all positions, times, displacements, directions", "why_tests_cant": "pointwise identity over a continuum", "anchors": ["Source/Physics/Fields/EMField/PlaneEMField.cpp: GetField"]}
{"id": "C26", "title": "Photons move in straight lines at the speed of light", "statement": "A push of an alive massless particle with non-zero momentum moves it by exactly one time step of length along its direction, leaves its momentum and energy unchanged and advances its clock by one step; after n pushes it is n steps along the same line.", "quantifier": "all photons, fields, time steps and numbers of pushes", "why_tests_cant": "unbounded numbers of steps over a continuum of states", "anchors": ["Source/Physics/ParticlePushers/ParticlePusher.cpp: PushParticle"]}
{"id": "C27", "title": "Massive particles never outrun light", "statement": "For every field, every pusher and every number n of pushes, a massive particle is never displaced by n*dt or more in n steps of size dt.", "quantifier": "all fields (arbitrary functions of time and position), all momenta, positive mass, all numbers of steps", "why_tests_cant": "quantifies over all fields and unbounded histories", "anchors": ["Source/Physics/ParticlePushers/ParticlePusher.cpp: PushParticle, PushPosition"]}
{"id": "C28", "title": "Free flight and constant electric field are integrated exactly", "statement": "In zero field any number of Lorentz pushes leaves the momentum and energy unchanged and moves the particle on a straight line at its velocity; in a uniform electric field each push changes the momentum by exactly charge*E*dt, also under any number of pushes.", "quantifier": "all particles, time steps, uniform fields and numbers of pushes", "why_tests_cant": "unbounded numbers of steps", "anchors": ["Source/Physics/ParticlePushers/ParticlePusher.cpp: PushParticle", "Source/Physics/ParticlePushers/LorentzPusher.cpp: PushMomentum"]}
{"id": "C29", "title": "Radiation reaction only slows particles down", "statement": "For every field and every non-zero momentum, the radiation-reaction force of the Landau pusher is antiparallel to the momentum (or zero), and that of the modified Landau pusher is the same force scaled by a factor in (0,1].", "quantifier": "all fields, momenta, positions and times", "why_tests_cant": "a bound over a continuum with a transcendental correction factor", "anchors": ["Source/Physics/ParticlePushers/LandauPusher.cpp: PushMomentum", "Source/Physics/ParticlePushers/ModifiedLandauPusher.cpp: PushMomentum, GetGaunt"]}
{"id": "C30", "title": "Dead particles never change", "statement": "Once a particle is not alive, no push and no process ever changes it or adds a particle on its account, whatever the field, tables and random draws, for the rest of the event.", "quantifier": "all later steps, all pushers and processes, all random draws", "why_tests_cant": "holds over unbounded suffixes of every history", "anchors": ["Source/Physics/ParticlePushers/ParticlePusher.cpp: PushParticle", "Source/Physics/Processes/StochasticEmission.cpp", "Source/Physics/Processes/ContinuousEmission.cpp", "Source/Physics/Processes/NonLinearBreitWheeler.cpp", "Source/Particles/Particle.hh: Kill, IsAlive"]}
{"id": "C31", "title": "Charge-conjugation symmetry of the pushers", "statement": "Reversing the sign of the charge together with the electric and magnetic fields leaves the result of every push unchanged, for all three pushers.", "quantifier": "all fields, particles, time steps", "why_tests_cant": "a relation between two runs over a continuum", "anchors": ["Source/Physics/ParticlePushers/LorentzPusher.cpp", "Source/Physics/ParticlePushers/LandauPusher.cpp", "Source/Physics/ParticlePushers/ModifiedLandauPusher.cpp"]}
{"id": "C32", "title": "Stochastic emission conserves momentum", "statement": "When a photon is emitted and stored, the momentum of the lepton after emission plus the momentum of the photon equals the momentum of the lepton before, for every random draw.", "quantifier": "all leptons, fields, tables, draws", "why_tests_cant": "all random outcomes including the high-energy tail where the photon takes more momentum than the lepton has", "anchors": ["Source/Physics/Processes/StochasticEmission.cpp: Interact"]}
{"id": "C33", "title": "Full sampling stores every photon", "statement": "With the default sample fraction of 1, every stochastic emission of a photon above the minimum energy adds that photon, with the parent's weight, to the event.", "quantifier": "all random draws, leptons, fields, tables", "why_tests_cant": "all random draws: a single run cannot tell never from rarely", "anchors": ["Source/Physics/Processes/StochasticEmission.cpp: Interact", "Source/Physics/Processes/StochasticEmission.hh"]}
{"id": "C34", "title": "Photon sampling is unbiased", "statement": "For every sample fraction f in (0,1], the probability of storing a photon times the weight it is stored with equals the weight it stands for, so thinning does not bias the spectrum.", "quantifier": "all sample fractions and parent weights, over the whole probability space of the sampling draw", "why_tests_cant": "an expectation over a continuous distribution", "anchors": ["Source/Physics/Processes/StochasticEmission.cpp: Interact", "Source/Physics/Processes/ContinuousEmission.cpp: Interact"]}
{"id": "C35", "title": "Continuous emission does not touch its parent", "statement": "A continuous-emission step leaves the parent particle unchanged and adds at most one photon, which sits at the parent's position and time, flies along the parent's direction and is above the minimum energy.", "quantifier": "all particles, fields, tables, draws", "why_tests_cant": "all random draws over a continuum of states", "anchors": ["Source/Physics/Processes/ContinuousEmission.cpp: Interact"]}
{"id": "C36", "title": "Breit-Wheeler conversion conserves charge, energy and weight", "statement": "When a photon converts, it is killed and exactly one positron and one electron are added to the event; their energies sum to the photon's energy, they have its position, time, weight and direction, and opposite charges. When it does not convert nothing is added.", "quantifier": "all photons, fields, tables and draws, all particle lists", "why_tests_cant": "all random draws and list fill levels; the failing case is a list with one free slot", "anchors": ["Source/Physics/Processes/NonLinearBreitWheeler.cpp: Interact"]}
{"id": "C37", "title": "Field-free regions do not disturb a photon", "statement": "A photon that crosses a region of exactly zero field keeps its optical depth there and still converts when it later reaches a strong field.", "quantifier": "all photons, tables and histories with field-free steps", "why_tests_cant": "the failure is silent: not-a-number makes every later comparison false", "anchors": ["Source/Physics/Processes/NonLinearBreitWheeler.cpp: Interact", "Source/Tools/Numerics.cpp: Interpolate1D", "Source/Physics/Fields/EMField/FocusingField.cpp"]}
{"id": "C38", "title": "Emitted photons never carry more than the lepton energy", "statement": "With tables whose largest chi at each eta is eta/2, the photon of a stochastic emission never has more energy than the lepton that emits it.", "quantifier": "all table sizes, leptons, fields and draws", "why_tests_cant": "the extreme tail of the spectrum is practically never sampled", "anchors": ["Source/Physics/Processes/StochasticEmission.cpp", "Source/Physics/Processes/PhotonEmission.cpp: CalculateChi, LoadTables"]}
{"id": "C39", "title": "Table lookups never read outside the tables", "statement": "For tables of any consistent sizes of at least two rows and columns, every lookup made by the emission and pair-production processes either reads only existing entries or ends the program; it never reads outside the tables.", "quantifier": "all table sizes, queries and draws", "why_tests_cant": "memory safety over all inputs", "anchors": ["Source/Physics/Processes/PhotonEmission.cpp: CalculateChi", "Source/Physics/Processes/NonLinearBreitWheeler.cpp: CalculateSplit", "Source/Tools/Numerics.cpp"]}
{"id": "C40", "title": "The time loop ends after the expected number of steps", "statement": "With a positive time step dt and end time T, an event makes exactly ceil(T/dt) time steps, whatever happens to the particles; each step visits at most as many particles as the list can hold. With a zero or negative time step and T > 0 it never ends.", "quantifier": "all dt, T, fields, processes, draws", "why_tests_cant": "termination for all inputs", "anchors": ["Source/Exec/QEDCASC.cpp: main"]}
{"id": "C41", "title": "Every histogram is filled exactly once per event, when its time comes", "statement": "In every event each configured histogram is filled exactly once; if the histogram times are non-negative, increasing and at least one step apart, each is filled at the first step whose time is not before its time, or after the loop if there is none.", "quantifier": "all lists of histogram times, all time steps", "why_tests_cant": "unbounded number of histograms and steps", "anchors": ["Source/Exec/QEDCASC.cpp: main"]}
{"id": "C42", "title": "Particle clocks agree with the simulation clock", "statement": "At the end of every time step, every alive particle's time equals the simulation time.", "quantifier": "all steps, particles and random draws", "why_tests_cant": "secondaries are created at random steps", "anchors": ["Source/Exec/QEDCASC.cpp: main", "Source/Physics/ParticlePushers/ParticlePusher.cpp: PushParticle", "Source/Physics/Processes/StochasticEmission.cpp", "Source/Physics/Processes/NonLinearBreitWheeler.cpp"]}
{"id": "C43", "title": "Total charge is conserved over an event", "statement": "As long as the particle list does not fill up, the total charge of all particles in an event after any number of steps equals the charge of the primary, for every choice of physics, field and random draws.", "quantifier": "all numbers of steps, all random draws, all process combinations", "why_tests_cant": "an invariant over unbounded random histories", "anchors": ["Source/Exec/QEDCASC.cpp: main", "Source/Physics/Processes/NonLinearBreitWheeler.cpp", "Source/Physics/Processes/StochasticEmission.cpp", "Source/Physics/Processes/ContinuousEmission.cpp"]}
{"id": "C44", "title": "Events only grow and keep their identity", "statement": "During an event particles are never removed or reordered: the list after more steps extends the earlier one, and each entry keeps its mass, charge, kind and weight for the whole event, and a dead particle never becomes alive again.", "quantifier": "all steps, histories and draws", "why_tests_cant": "a monotonicity statement over unbounded histories", "anchors": ["Source/Exec/QEDCASC.cpp: main", "Source/Particles/ParticleList.cpp"]}
{"id": "C45", "title": "Histogram counts are complete", "statement": "After adding any sequence of particles, the sum of all bins equals the number of added particles whose value lies strictly inside the range, each counted in the bin with the nearest centre.", "quantifier": "all particle sequences, bin counts of at least two and ranges", "why_tests_cant": "unbounded sequences", "anchors": ["Source/IO/Output/Histogram.cpp: AppParticle, Initialise"]}
{"id": "C46", "title": "Histogram type selects the binned quantity", "statement": "A histogram configured with type x, y, z, px, py or pz bins that coordinate of the particles.", "quantifier": "all types and particles", "why_tests_cant": "one wrong operator makes all types behave as energy; a test with type energy passes", "anchors": ["Source/IO/Output/Histogram.cpp: AppParticle, Fill"]}
{"id": "C47", "title": "Histograms count particle weights", "statement": "A particle of weight w contributes w to its bin.", "quantifier": "all weights and particles", "why_tests_cant": "tests with unit weights cannot see it", "anchors": ["Source/IO/Output/Histogram.cpp: AppParticle"]}
{"id": "C48", "title": "Normalised histograms sum to one", "statement": "After Fill the bins sum to one whenever at least one particle lies inside the range, and Normalise never changes the ratio between bins.", "quantifier": "all particle lists", "why_tests_cant": "unbounded lists", "anchors": ["Source/IO/Output/Histogram.cpp: Fill, Normalise"]}
{"id": "C49", "title": "Merging histograms adds them, in any order", "statement": "Merging compatible histograms adds them bin by bin, so the result of merging any number of them does not depend on the order; incompatible ones leave the target unchanged.", "quantifier": "all histograms, all merge orders", "why_tests_cant": "all permutations of unbounded lists", "anchors": ["Source/IO/Output/Histogram.cpp: Merge"]}
{"id": "C50", "title": "Single-bin histograms work", "statement": "A histogram with the default single bin counts every particle in its range.", "quantifier": "all ranges and particles", "why_tests_cant": "division by zero yields not-a-number silently", "anchors": ["Source/IO/Output/Histogram.cpp: Initialise", "Source/IO/Input/FileParser.cpp: ReadHistograms"]}
{"id": "C51", "title": "Output tables list every particle once, in order", "statement": "For any events, the electron, positron and photon tables consist of one row per particle of that species, event after event and in list order within an event, each with its event id, energy, momentum and position; row counts add up to the total number of stored particles.", "quantifier": "all numbers of events, list contents and species mixes", "why_tests_cant": "unbounded events and particles", "anchors": ["Source/IO/Output/OutputManager.cpp: StoreSource, OutputEvents"]}
{"id": "C52", "title": "Converted photons are not reported", "statement": "The final photon table and the histograms contain only photons that still exist, not those that have converted into pairs.", "quantifier": "all events with conversions", "why_tests_cant": "conversions are random and rare", "anchors": ["Source/IO/Output/OutputManager.cpp: StoreSource", "Source/Exec/QEDCASC.cpp: main", "Source/IO/Output/Histogram.cpp"]}
{"id": "C53", "title": "Every source with output is saved", "statement": "For any number of sources with output enabled, the results of each are written to the file.", "quantifier": "all numbers and combinations of sources", "why_tests_cant": "needs at least two output sources in one input", "anchors": ["Source/Exec/QEDCASC.cpp: main", "Source/IO/Output/OutputManager.cpp: OutputEvents", "Source/IO/Output/HDF5Output.cpp"]}
{"id": "C54", "title": "AddGroup makes the group exist", "statement": "After AddGroup(name) the group exists in the output file, whether or not it existed before.", "quantifier": "all file states and names", "why_tests_cant": "depends on the return convention of an external library", "anchors": ["Source/IO/Output/HDF5Output.cpp: AddGroup"]}
{"id": "C55", "title": "MPI gathering is complete, ordered and deadlock free", "statement": "For every number of ranks and every schedule, with blocking sends, the master's gather of events finishes and its output is its own rows followed by those of rank 1, 2, ... in rank order.", "quantifier": "all numbers of ranks, all schedules, all message contents", "why_tests_cant": "all interleavings of unbounded numbers of processes", "anchors": ["Source/IO/Output/OutputManager.cpp: OutputEventsMPI"]}
{"id": "C56", "title": "MPI histogram reduction is exact under every arrival order", "statement": "For every number of ranks, number of histograms and schedule, each histogram written by the master is the bin-wise sum of that same histogram over all ranks, and contributions to different histograms are never mixed.", "quantifier": "all numbers of ranks and histograms, all schedules", "why_tests_cant": "any-source receives: all arrival orders", "anchors": ["Source/IO/Output/OutputManager.cpp: OutputHistMPI"]}
{"id": "C57", "title": "Threads never share a primary", "statement": "However events are distributed over threads and however the threads interleave, each sample of the source is used by exactly one event.", "quantifier": "all thread counts and all interleavings", "why_tests_cant": "data races show up only under rare schedules", "anchors": ["Source/Exec/QEDCASC.cpp: main", "Source/Python/RunManager.cpp: beamOn", "Source/Particles/SourceGenerator.cpp: GenerateList"]}
{"id": "C58", "title": "Field grid output is a faithful row-major table", "statement": "In the field output, grid point (i,j,k) is stored at exactly one flat index, distinct points at distinct indices and all indices of the buffer are used, for every grid size.", "quantifier": "all grid sizes", "why_tests_cant": "unbounded sizes, off-by-one index errors only show for unequal axes", "anchors": ["Source/IO/Output/OutputManager.cpp: OutEMField"]}
{"id": "C59", "title": "INI round trip", "statement": "Writing any configuration of well-formed sections, names and values as an INI file and reading it back returns exactly the written value for every section and name, whatever the number of entries.", "quantifier": "all well-formed configurations of any size", "why_tests_cant": "unbounded configurations", "anchors": ["Source/IO/Input/ini.cpp: ini_parse_stream", "Source/IO/Input/INIReader.cpp: INIReader, Get, ValueHandler, MakeKey"]}
{"id": "C60", "title": "Comments and blank lines are inert", "statement": "Inserting comment lines or blank lines anywhere in an INI file, any number of them, changes no value read from it.", "quantifier": "all files, all insertion points", "why_tests_cant": "all positions in unbounded files", "anchors": ["Source/IO/Input/ini.cpp: ini_parse_stream"]}
{"id": "C61", "title": "Names are case-insensitive, sections included", "statement": "Values are found whatever the case used for section and key names, and section detection treats them the same way.", "quantifier": "all spellings of section and key names", "why_tests_cant": "tests use one spelling", "anchors": ["Source/IO/Input/INIReader.cpp: MakeKey, ValueHandler, GetSections", "Source/IO/Input/FileParser.cpp"]}
{"id": "C62", "title": "Parse errors report the first bad line and do not hide later lines", "statement": "For every file, the parser's result is zero if every line is a comment, a blank, a section header, a continuation or a name/value pair, and otherwise the number of the first line that is none of these; all the other lines are still read.", "quantifier": "all files", "why_tests_cant": "unbounded files with any number of errors", "anchors": ["Source/IO/Input/ini.cpp: ini_parse_stream"]}
{"id": "C63", "title": "Long lines are read whole", "statement": "A name/value line of any length is read as one entry.", "quantifier": "all line lengths", "why_tests_cant": "the limit is a compile-time buffer size that short test lines never reach", "anchors": ["Source/IO/Input/ini.cpp: ini_parse_stream", "Source/IO/Input/ini.hh: INI_MAX_LINE"]}
{"id": "C64", "title": "Three-vectors are read as documented", "statement": "A value written in the documented form [a,b,c] is read as the vector (a,b,c), and a missing value gives the default passed by the caller.", "quantifier": "all numeric components and defaults", "why_tests_cant": "all numbers; the separator is stripped before parsing", "anchors": ["Source/IO/Input/INIReader.cpp: GetThreeVector", "Source/IO/Input/INIReader.hh"]}
{"id": "C65", "title": "Space-separated three-vectors are read correctly", "statement": "Three decimal numbers separated by single spaces, possibly signed, fractional or with a lower-case exponent, are read as exactly those three components; more than three numbers stop the program and fewer are completed with zeros.", "quantifier": "all decimal numerals", "why_tests_cant": "unbounded digit strings", "anchors": ["Source/IO/Input/INIReader.cpp: GetThreeVector"]}
{"id": "C66", "title": "Invalid input files are rejected before anything runs", "statement": "A configuration without General section, time step, end time or units, with unknown units, with an unknown field type or with a vector of more than three numbers ends the program with an error code; one without these defects is accepted by the parser.", "quantifier": "all configurations", "why_tests_cant": "all combinations of missing and present items", "anchors": ["Source/IO/Input/FileParser.cpp: CheckVitals, ReadGeneral, ReadField", "Source/Tools/UnitsSystem.cpp"]}
{"id": "C67", "title": "All numbered sections are read", "statement": "The sources read are exactly those of sections Particle1, Particle2, ... up to the first missing number, each with its own values; likewise histograms.", "quantifier": "all configurations and numbers of sections", "why_tests_cant": "unbounded numbers of sections; gaps", "anchors": ["Source/IO/Input/FileParser.cpp: ReadParticles, ReadHistograms"]}
{"id": "C68", "title": "Physics selection", "statement": "Each accepted physics name selects the documented pusher and emission model (classical: Landau and classical continuous emission; semiclassical: modified Landau and continuous emission; quantum: Lorentz and stochastic emission), every other name stops the program with an error, and pair production is added exactly when requested.", "quantifier": "all strings", "why_tests_cant": "all strings", "anchors": ["Source/Exec/QEDCASC.cpp: main"]}
{"id": "C69", "title": "Command line handling", "statement": "The program starts a run exactly when it is given one argument that ends in .ini; any other command line makes it return an error code without running.", "quantifier": "all argument vectors", "why_tests_cant": "all strings, including ones shorter than the suffix", "anchors": ["Source/Exec/QEDCASC.cpp: main"]}
{"id": "C70", "title": "Run manager calls are memory safe in any order", "statement": "Any sequence of configuration calls and beamOn calls on a RunManager, followed by its destruction, frees every object at most once and never uses a freed one.", "quantifier": "all call sequences", "why_tests_cant": "unbounded histories of API calls", "anchors": ["Source/Python/RunManager.cpp: beamOn, ~RunManager, setField, setPhysics"]}
{"id": "C71", "title": "Run manager accepts the documented physics names", "statement": "setPhysics accepts Classical, Semiclassical and Quantum in capitalised or lower case, rejects every other string, and an accepted name runs the model it names.", "quantifier": "all strings", "why_tests_cant": "all strings; a misspelt literal", "anchors": ["Source/Python/RunManager.cpp: setPhysics, beamOn"]}
{"id": "C72", "title": "A rejected run leaves no partial results and needs a full configuration", "statement": "beamOn runs exactly when field, physics, beam, a non-zero time step and a non-zero end time have been set; otherwise it changes no result.", "quantifier": "all call histories", "why_tests_cant": "all subsets and orders of configuration calls", "anchors": ["Source/Python/RunManager.cpp: beamOn, setTime, setField, setPhysics, setBeam"]}
{"id": "C73", "title": "Result arrays have consistent shape and content", "statement": "After a successful run of n events, the input array has n rows of six columns and the electron, positron and photon arrays have seven columns and one row per stored particle of that species, whatever the number of threads.", "quantifier": "all n, thread counts and event contents", "why_tests_cant": "unbounded numbers of events, all distributions over threads", "anchors": ["Source/Python/RunManager.cpp: beamOn, getInput, getElectrons, getPositrons, getPhotons"]}
{"id": "C74", "title": "Unit conversion round trip", "statement": "Quantities given in SI units are converted to the internal units and back without change, and the internal reference values satisfy the relations that make the equations of motion dimensionless.", "quantifier": "all quantities", "why_tests_cant": "all real inputs; algebraic relations between constants", "anchors": ["Source/Tools/UnitsSystem.cpp", "Source/Tools/UnitsSystem.hh", "Source/Python/RunManager.cpp"]}
{"id": "C75", "title": "Sample fraction stays valid", "statement": "After any sequence of API calls the sample fraction of a RunManager lies in [0,1]; an out-of-range request leaves it unchanged.", "quantifier": "all call sequences and arguments", "why_tests_cant": "unbounded histories", "anchors": ["Source/Python/RunManager.cpp: setSampleFraction"]}
{"id": "C76", "title": "The Geant4 primary generator fires every cascade particle exactly once", "statement": "Over successive calls the primary generator fires each particle of each simulated event exactly once, event by event, and then asks for the run to be aborted; it never reads outside an event.", "quantifier": "all numbers of events, event sizes and calls", "why_tests_cant": "unbounded sequences of calls", "anchors": ["Source/Geant/G4CascadeGenerator.cpp: GeneratePrimaries"]}
{"id": "C77", "title": "The Geant4 emission process frees its particle once", "statement": "Any sequence of calls by the Geant4 kernel to the emission process, followed by its destruction, frees the internal particle at most once.", "quantifier": "all call sequences", "why_tests_cant": "unbounded call histories", "anchors": ["Source/Geant/G4StochasticEmission.cpp: PostStepDoIt, GetMeanFreePath, ~G4StochasticEmission"]}
{"id": "C78", "title": "The laser field oscillates in time", "statement": "At every point where a laser field is non-zero at some time, there is another time at which the electric field points the opposite way: the carrier wave moves with the pulse.", "quantifier": "all laser parameters, points and times", "why_tests_cant": "a test compares the field at a few times with a stored snapshot; that the sign never changes is a statement about all times", "anchors": ["Source/Physics/Fields/EMField/GaussianEMField.cpp: GetField", "Source/Physics/Fields/EMField/FocusingField.cpp: GetField", "Source/Physics/Fields/EMField/PlaneEMField.cpp: GetField"]}
{"id": "C79", "title": "Input values reach the run in internal units", "statement": "Every value of the General, Field and Physics sections that is written as a number, vector, text or truth value is handed on unchanged, divided by the reference value of its unit; values that are absent take their documented defaults.", "quantifier": "all configurations and all values", "why_tests_cant": "all numbers and all combinations of given and absent entries", "anchors": ["Source/IO/Input/FileParser.cpp: ReadGeneral, ReadField, ReadPhysics", "Source/Tools/UnitsSystem.cpp"]}
{"id": "C80", "title": "Requested histograms and tracks are saved", "statement": "After a run, every histogram asked for is in the output file with its bin centres and bin values, and so is every recorded particle track; writing them does not end the program.", "quantifier": "all histograms, all sets of tracks and all histories of calls before the output", "why_tests_cant": "It must hold for every history of output calls and every state of the file; a test sees a few of them and needs the HDF5 library.", "anchors": ["Source/IO/Output/OutputManager.cpp: OutputHist, OutputEvents", "Source/IO/Output/HDF5Output.cpp: AddGroup, AddArray1D", "Source/Exec/QEDCASC.cpp: main"]}
{"id": "C81", "title": "A run manager frees what it allocates", "statement": "After any sequence of calls on a RunManager and its destruction, none of the objects it created is left allocated.", "quantifier": "all call sequences", "why_tests_cant": "unbounded histories of API calls; leaks are invisible in results", "anchors": ["Source/Python/RunManager.cpp: beamOn, ~RunManager"]}
{"id": "C82", "title": "Geant4 receives the surviving particles with their kinetic energy", "statement": "What the primary generator hands to Geant4 is, for each particle that still exists at the end of a cascade, its species, direction and kinetic energy in MeV, and nothing for particles that were consumed.", "quantifier": "all sources, configurations, random draws and numbers of calls", "why_tests_cant": "It must hold for every outcome of a random cascade; tests run a handful and need Geant4.", "anchors": ["Source/Geant/G4CascadeGenerator.cpp: GeneratePrimaries"]}
{"id": "C83", "title": "A lepton that nothing happens to keeps its energy in Geant4", "statement": "An electron or positron that crosses a region without field leaves the emission process with the kinetic energy and direction it came with, and without secondaries.", "quantifier": "all tracks, time steps, end times and random draws", "why_tests_cant": "It must hold for every track and any number of internal time steps; tests need Geant4 and see single tracks.", "anchors": ["Source/Geant/G4StochasticEmission.cpp: PostStepDoIt"]}
{"id": "C84", "title": "The emission process acts once per crossing", "statement": "Every track that crosses the laser region is processed by the emission process exactly once, however many steps Geant4 takes inside the region; outside the region it never acts.", "quantifier": "all sequences of tracks and numbers of steps", "why_tests_cant": "unbounded histories of calls by the Geant4 kernel, with state shared between tracks", "anchors": ["Source/Geant/G4StochasticEmission.cpp: GetMeanFreePath"]}
{"id": "C85", "title": "The surrogate's photons come from the photon model", "statement": "The photons that the learned surrogate process gives to Geant4 have momenta sampled from the photon model, with energy equal to the magnitude of the momentum; sampling never reads outside the model's output.", "quantifier": "all model outputs, numbers of components, numbers of photons and random draws", "why_tests_cant": "It must hold for every output of a learned model; tests use one trained graph.", "anchors": ["Source/Geant/G4CascadeTF.cpp: PostStepDoIt"]}
{"id": "C86", "title": "The tables in use are the tables in the files", "statement": "When the table directory is given and the table files are complete, each process works with exactly the numbers written in the files, row by row and column by column, whatever white space separates them; with at least two rows and columns no later look-up leaves the tables.", "quantifier": "all directories, file contents, table sizes, numerals and layouts", "why_tests_cant": "It must hold for every table a user supplies, of every size and layout; tests only load the shipped ones.", "anchors": ["Source/Physics/Processes/PhotonEmission.cpp: LoadTables", "Source/Physics/Processes/NonLinearBreitWheeler.cpp: LoadTables"]}
{"id": "C87", "title": "The grid of the photon-energy table runs from the smallest chi to half eta in each row", "statement": "The eta axis is evenly spaced over the range in the file; the chi values of each row are evenly spaced in the logarithm from the smallest chi given for the row to half of the eta of the row.", "quantifier": "all numbers of rows and columns, all ranges of eta and smallest chi", "why_tests_cant": "The shipped table has as many rows as columns, so every test with it passes.", "anchors": ["Source/Physics/Processes/PhotonEmission.cpp: LoadTables"]}
{"id": "C88", "title": "Missing or incomplete table files are reported", "statement": "If the table directory is not given, or a table file is missing or ends too soon, loading ends the program with a message; it does not go on with invented numbers.", "quantifier": "all environments and file contents", "why_tests_cant": "Files can be cut off at any point; tests use complete files.", "anchors": ["Source/Physics/Processes/PhotonEmission.cpp: LoadTables", "Source/Physics/Processes/NonLinearBreitWheeler.cpp: LoadTables"]}
{"id": "C89", "title": "A process frees the arrays it made exactly once", "statement": "Unloading the tables of a process frees every array made when loading them, exactly once, and never reaches a row through an array that has already been freed.", "quantifier": "all table sizes", "why_tests_cant": "Double frees and leaks depend on the size of the table and need not show in a test.", "anchors": ["Source/Physics/Processes/PhotonEmission.cpp: LoadTables, UnloadTables", "Source/Physics/Processes/NonLinearBreitWheeler.cpp: LoadTables, UnloadTables"]}
{"id": "C90", "title": "Counts in the input file mean what they say", "statement": "A number of particles or of bins given in the input file as a whole number is taken at its value, with or without leading zeros; a negative or non-integer count is refused.", "quantifier": "all input files, all sources and histograms in them, all numerals", "why_tests_cant": "Only some numerals go wrong (negative, with a leading zero, with an exponent); the set of numerals is unbounded.", "anchors": ["Source/IO/Input/FileParser.cpp: ReadParticles, ReadHistograms", "Source/IO/Input/INIReader.cpp: GetInteger"]}
{"id": "C91", "title": "The run is set up from the values read", "statement": "The event loop uses the time step and end time of the input; the field is the one asked for with the given parameters; each source gives the asked number of events of the asked species, spread by radius across, duration along and divergence about the beam; each histogram has the asked name, species, quantity, time, and number of bins evenly spaced between the limits.", "quantifier": "all parameter values, all random draws", "why_tests_cant": "Swapped arguments of the same type go unnoticed unless every pair of values is varied independently.", "anchors": ["Source/Exec/QEDCASC.cpp: main", "Source/Particles/SourceGenerator.cpp: SourceGenerator", "Source/IO/Output/Histogram.cpp: Histogram"]}
{"id": "C92", "title": "Data sets hold the recorded numbers", "statement": "Once its group exists, each data set of a track, single particle, histogram, particle list or field grid holds exactly the recorded numbers, in order, with the right shape, lengths, momenta and times in output units and dimensionless numbers unchanged; and all recorded tracks are kept, in the order recorded.", "quantifier": "all files, particles, tracks, histograms, fields, grids and histories of output calls", "why_tests_cant": "It is about all contents and all histories of calls; swapped components or wrong units only show for particular data.", "anchors": ["Source/IO/Output/OutputManager.cpp: SingleParticle, ListTracks, ListProperties, StoreTrack, OutputEvents, OutEMField, OutputHist"]}
{"id": "C93", "title": "A run saves what its input asks for", "statement": "If the input file asks for histograms, for the events of a source or for tracks, then a run that gets past the set-up ends normally with these in the output file.", "quantifier": "all command lines, input files, tables, random numbers and contents of uninitialised memory", "why_tests_cant": "It is a statement about the whole program and every input; a test sees one input and one sequence of random numbers.", "anchors": ["Source/Exec/QEDCASC.cpp: main", "Source/IO/Output/OutputManager.cpp: OutputEvents, OutputHist", "Source/IO/Output/HDF5Output.cpp: AddGroup"]}
{"id": "C94", "title": "No input makes the program run into undefined behaviour", "statement": "Whatever the command line, the input file and the random numbers, the program has no undefined behaviour: no access outside of an array, no violated library precondition.", "quantifier": "all command lines, input files, random numbers, contents of uninitialised memory; all tables of consistent sizes", "why_tests_cant": "Undefined behaviour may go unnoticed when it happens, and it depends on inputs and random numbers of which a test sees few.", "anchors": ["Source/Exec/QEDCASC.cpp: main", "Source/Particles/SourceGenerator.cpp: SourceGenerator", "Source/Physics: Interact of all processes"]}
{"id": "C95", "title": "Every run ends", "statement": "The program ends, with a normal result or an error, after finitely many time steps, for every input it accepts.", "quantifier": "all command lines, input files, tables, random numbers and contents of uninitialised memory", "why_tests_cant": "A test can neither observe that a run never ends nor try all inputs.", "anchors": ["Source/Exec/QEDCASC.cpp: main", "Source/IO/Input/FileParser.cpp: ReadGeneral"]}
{"id": "C96", "title": "The time loop keeps time in double precision", "statement": "In double precision arithmetic an event makes as many time steps as fit into the end time, rounded up, and comes to an end.", "quantifier": "all time steps and end times that are IEEE doubles, all particles, random numbers and processes", "why_tests_cant": "The accumulated rounding of the clock depends on the time step and on the number of steps; a test tries few of them, and a run that never ends cannot be observed.", "anchors": ["Source/Exec/QEDCASC.cpp: main (time loop)"]}
{"id": "C97", "title": "Histogram counts are exact in double precision", "statement": "In double precision the bins of a histogram hold exactly the number of particles of its species that fall into them, where bin centres and distances are the exact ones up to rounding; the sums over MPI ranks are exact and do not depend on the order of arrival.", "quantifier": "all ranges and numbers of bins, all lists of particles with any energies including infinities and NaN, all schedules of the ranks", "why_tests_cant": "Rounding and the order of floating point additions matter only for particular values and schedules.", "anchors": ["Source/IO/Output/Histogram.cpp: AppParticle, Initialise", "Source/Tools/Numerics.cpp: ArrayIndex", "Source/IO/Output/OutputManager.cpp: OutputHist"]}
{"id": "C98", "title": "The shipped tables load completely and safely", "statement": "With the environment variable pointing at the table files that come with the program, every process loads exactly the numbers in those files, and no lookup in them, by any run of the program, goes outside a table.", "quantifier": "all names of the table directory, all input files, random numbers and numbers of steps", "why_tests_cant": "A test runs a few inputs; an index that leaves a table shows only for particular values, and a table entry that is skipped or read twice goes unnoticed.", "anchors": ["Tables/", "Source/Physics/Processes/PhotonEmission.cpp: LoadTables", "Source/Physics/Processes/NonLinearBreitWheeler.cpp: LoadTables"]}
{"id": "C99", "title": "With the shipped tables, both leptons of a pair get a share between 0 and 1", "statement": "When a photon converts with the table files that come with the program, the share of its energy that the positron gets lies between 0 and 1, so that the two leptons together have the energy of the photon.", "quantifier": "all values of chi and all draws in [0,1)", "why_tests_cant": "The share is interpolated and extrapolated over 100 rows of 100 numbers with a continuous draw and a continuous chi.", "anchors": ["Tables/e_split.table", "Tables/log_chi.table", "Tables/epsilon.table", "Source/Physics/Processes/NonLinearBreitWheeler.cpp: CalculateSplit", "Source/Tools/Numerics.cpp: Interpolate1D, ClosestPoints"]}
{"id": "C100", "title": "With the shipped tables, a photon never takes more energy than the lepton has", "statement": "When a lepton emits a photon with the table files that come with the program, it loses at most its own energy and the stored photon has at most that energy, also when eta is smaller than the tables cover.", "quantifier": "all fields, all leptons with eta of at least 10^-400, which is below every positive double, and all draws in [0,1)", "why_tests_cant": "The energy comes from two interpolations in tables of 10000 numbers, with an extrapolation below them, for continuous eta and draw.", "anchors": ["Tables/ksi_sokolov.table", "Tables/chimin.table", "Source/Physics/Processes/PhotonEmission.cpp: CalculateChi, LoadTables", "Source/Physics/Processes/StochasticEmission.cpp: Interact"]}
{"id": "C101", "title": "Sampled energies follow the tabulated distributions", "statement": "For a uniform random number the energy share of a pair and the chi of an emitted photon are distributed as the table files say: at a tabulated chi or eta, each tabulated value is undercut with exactly its tabulated cumulative probability, and between two of them the sample is the average of the neighbouring samples with the weights given by the distances.", "quantifier": "all tables of cumulative distributions, all tabulated chi and eta, all columns and all draws in [0,1)", "why_tests_cant": "A probability can only be estimated from finitely many runs, and a wrong weight or a neighbouring row changes it a little only.", "anchors": ["Source/Physics/Processes/NonLinearBreitWheeler.cpp: CalculateSplit", "Source/Physics/Processes/PhotonEmission.cpp: CalculateChi", "Source/Tools/Numerics.cpp: Interpolate1D, ClosestPoints", "Tables/"]}
{"id": "C102", "title": "Eta and chi are the Lorentz-invariant quantum parameters", "statement": "The eta of a lepton, in emission and in the radiation-reaction pushers, is the invariant |F p| of the field tensor and its four-velocity, and the chi of a photon is half that of its four-momentum. Both are the same in every inertial frame.", "quantifier": "all electric and magnetic fields, all momenta, all Lorentz transformations", "why_tests_cant": "A wrong sign or factor in one term shows only for particular directions of field and momentum.", "anchors": ["Source/Physics/Processes/PhotonEmission.cpp: CalculateEta", "Source/Physics/Processes/NonLinearBreitWheeler.cpp: CalculateChi", "Source/Physics/ParticlePushers/LandauPusher.cpp: PushMomentum", "Source/Physics/ParticlePushers/ModifiedLandauPusher.cpp: PushMomentum"]}
{"id": "C103", "title": "A push is one classical Runge-Kutta step of the equations of motion", "statement": "Pushing a lepton advances its position and momentum by one step of the classical fourth-order Runge-Kutta method for the relativistic equations of motion, with the fields taken at the times and places the method prescribes. The force is the Lorentz force, with the Landau pushers minus 2/3 alpha eta squared along the momentum. In an electric field that is cubic in time the momentum is exact.", "quantifier": "all fields, time steps, masses, charges, positions and momenta, and any number of pushes", "why_tests_cant": "A field taken at a wrong time or a wrong weight still gives plausible trajectories and only lowers the order of accuracy.", "anchors": ["Source/Physics/ParticlePushers/ParticlePusher.cpp: PushParticle", "Source/Physics/ParticlePushers/LorentzPusher.cpp: PushMomentum", "Source/Physics/ParticlePushers/LandauPusher.cpp: PushMomentum", "Source/Physics/ParticlePushers/ModifiedLandauPusher.cpp: PushMomentum"]}
{"id": "C104", "title": "Trajectories converge to the solution of the equations of motion", "statement": "In static fields and plane waves, and any other bounded fields with bounded slope, the position and momentum that the Lorentz pusher computes over a given time go to those of the true trajectory as the time step goes to zero, with an error of at most a known constant times the step.", "quantifier": "all bounded Lipschitz fields, all leptons, all durations and time steps", "why_tests_cant": "A limit over all time steps cannot be observed, and the true trajectory is known in few cases only.", "anchors": ["Source/Physics/ParticlePushers/ParticlePusher.cpp: PushParticle", "Source/Physics/ParticlePushers/LorentzPusher.cpp: PushMomentum", "Source/Physics/Fields/EMField/PlaneEMField.cpp: GetField", "Source/Physics/Fields/EMField/StaticEMField.cpp: GetField"]}
{"id": "C105", "title": "First emissions and conversions follow the exponential law", "statement": "The chance, over the random number a particle is created with, that a lepton has emitted no photon (a photon has not converted to a pair) after any number of time steps is exp(-S), where S is the sum over those steps of rate times step along the path it follows without interaction. Given no interaction so far, the chance of one in the next step is 1 - exp(-rate times step). Until then the particle moves as without the process.", "quantifier": "all leptons and photons, all fields and pushers, all tables that cover the path, all numbers of steps", "why_tests_cant": "A probability can only be estimated by sampling, for one path at a time; the law must hold along every path and for every number of steps.", "anchors": ["Source/Particles/Particle.cpp: InitOpticalDepth, UpdateOpticalDepth", "Source/Physics/Processes/StochasticEmission.cpp: Interact", "Source/Physics/Processes/NonLinearBreitWheeler.cpp: Interact", "Source/Exec/QEDCASC.cpp: main"]}
{"id": "C106", "title": "Threads lose no histogram entries", "statement": "When several threads add particles to the same output histogram, each bin ends up with exactly the number of particles whose energy belongs to it, however the threads interleave.", "quantifier": "all histograms, thread counts, distributions of particles over threads and interleavings", "why_tests_cant": "lost updates show up only under rare schedules", "anchors": ["Source/IO/Output/Histogram.cpp: AppParticle", "Source/Exec/QEDCASC.cpp: main", "Source/Python/RunManager.cpp: beamOn"]}
{"id": "C107", "title": "Threads draw different random numbers", "statement": "When events run on several threads, no two random draws of the run use the same element of the generator's sequence, so that events are independent.", "quantifier": "all thread counts, numbers of draws and interleavings", "why_tests_cant": "data races show up only under rare schedules, and repeated draws are invisible in the output", "anchors": ["Source/Tools/MCTools.cpp: RandDouble", "Source/Exec/QEDCASC.cpp: main", "Source/Python/RunManager.cpp: beamOn"]}
{"id": "C108", "title": "Results do not depend on the choice of axes, origin and clock", "statement": "Describing the same experiment with turned or reflected axes, another origin and another zero of time gives the same event described in that way: with the same random numbers all particles and recorded tracks are turned, displaced and shifted, and energies, weights, optical depths, histograms, the number of steps and the way the run ends are unchanged.", "quantifier": "all orthogonal matrices, displacements, delays, fields, pushers, process lists, tables, initial particles, histograms and random sequences; all events, including those that abort", "why_tests_cant": "a test compares a few directions; the code has branches and formulas that treat axes differently and could break the symmetry for some direction only", "anchors": ["Source/Exec/QEDCASC.cpp: main event loop", "Source/Physics/ParticlePushers/*.cpp", "Source/Physics/Processes/*.cpp", "Source/Physics/Fields/EMField/PlaneEMField.cpp: GetField"]}
{"id": "C109", "title": "Electrons and positrons are mirror images", "statement": "Exchanging electrons with positrons and reversing the electric and magnetic fields exchanges electrons with positrons in every event and changes nothing else: tracks, photons, weights and histograms (with the names exchanged) are the same for the same random numbers.", "quantifier": "all fields, pushers, process lists, tables, initial particles, histograms and random sequences", "why_tests_cant": "the sign of the charge enters in several places and a lost sign would show only for one species in some fields", "anchors": ["Source/Physics/ParticlePushers/*.cpp", "Source/Physics/Processes/*.cpp", "Source/Particles/Lepton.cpp", "Source/Exec/QEDCASC.cpp: main event loop"]}
{"id": "C110", "title": "A longer run continues a shorter one", "statement": "Running the same input with a later end time changes nothing that happened before the earlier end: the longer run passes through the final state of the shorter one, every particle of the shorter run appears at the same place with the same identity and a track that begins with the shorter track, histograms due before the earlier end are identical, and a run that fails early fails in the same way at the same step.", "quantifier": "all pairs of end times, fields, pushers, process lists, tables, initial particles, histograms and random sequences, in any arithmetic including doubles", "why_tests_cant": "a test compares two end times for one input; the end time could enter a step length, a bin edge or a draw count for other inputs", "anchors": ["Source/Exec/QEDCASC.cpp: main event loop", "Source/IO/Output/Histogram.cpp: AppParticle"]}
{"id": "C111", "title": "Particles do not influence each other", "statement": "The particles of an event, with all their descendants, evolve independently: simulating some of the initial particles without the others, with the random numbers they used, gives exactly their share of the final particles, and separately simulated groups can be put together into one event. Without processes every particle follows its own path.", "quantifier": "all divisions of the initial particles into groups, all fields, pushers, process lists, tables, histograms and random sequences, in any arithmetic including doubles", "why_tests_cant": "a test sees one mixture of particles; hidden sharing of state between particles could show only for certain orders and secondaries", "anchors": ["Source/Exec/QEDCASC.cpp: main event loop", "Source/Physics/Processes/StochasticEmission.cpp: Interact", "Source/Physics/Processes/ContinuousEmission.cpp: Interact", "Source/Physics/Processes/NonLinearBreitWheeler.cpp: Interact", "Source/Particles/ParticleList.cpp: AddParticle"]}
{"id": "C112", "title": "Fields change the energy of a particle by the work they do", "statement": "With the Lorentz pusher, the energy a charged particle gains equals its charge times the drop of the electric potential, and a magnetic field changes no energy and no momentum along itself.", "quantifier": "all smooth fields with a potential, uniform static fields, magnetic fields varying in space and time; all charged particles, numbers of steps and time steps", "why_tests_cant": "a test checks a few orbits within a tolerance; a drift depends on field, momentum and step and could be of the wrong order for others", "anchors": ["Source/Physics/ParticlePushers/ParticlePusher.cpp: PushParticle", "Source/Physics/ParticlePushers/LorentzPusher.cpp: PushMomentum", "Source/Physics/Fields/EMField/StaticEMField.cpp: GetField"]}
{"id": "C113", "title": "Multivariate normal samples have the requested mean and covariance", "statement": "For every mean vector and every covariance matrix, a multivariate normal draw returns a vector of numbers, and over independent standard normal draws the vectors follow the multivariate normal distribution with exactly this mean and this covariance, whether the matrix is positive definite or only semidefinite. A symmetric matrix that is no covariance matrix gives NaNs and nothing else does.", "quantifier": "every dimension, every mean, every matrix, every result the decompositions may return", "why_tests_cant": "The claim is about a distribution; a test sees finitely many samples of a few matrices and cannot tell a slightly wrong covariance from chance.", "anchors": ["Source/Tools/MCTools.cpp: MCTools::RandNormNd", "Source/Tools/MCTools.hh: RandNormNd"]}
{"id": "C114", "title": "The surrogate samples the distribution that its model describes", "statement": "For every mean, width and skew that a trained model predicts, the momenta sampled from them follow the sinh-arcsinh distribution with these parameters, component by component and independently.", "quantifier": "every mean, non-negative width and skew, every number of components", "why_tests_cant": "The claim is about a distribution for every parameter; samples for a few parameters cannot establish it.", "anchors": ["Source/Tools/MCTools.cpp: MCTools::RandSinhArcsinhNd", "Source/Geant/G4CascadeTF.cpp: G4CascadeTF::PostStepDoIt"]}
{"id": "C115", "title": "Missing or incomplete files of the surrogate are reported", "statement": "If a model file or a file with scales that the surrogate process needs is missing, or lists fewer numbers than are needed, loading reports it; otherwise every crossing is computed from the models and the numbers in the files.", "quantifier": "every content of the directories, every crossing after loading", "why_tests_cant": "It ranges over every combination of missing and truncated files and over all crossings; what is read when a file is short is indeterminate and may look right in a test.", "anchors": ["Source/Geant/G4CascadeTF.cpp: G4CascadeTF::LoadGraphs", "Source/Geant/G4CascadeTF.cpp: G4CascadeTF::PostStepDoIt", "Source/Geant/TensorflowGraph.cpp: TensorflowGraph::TensorflowGraph", "Source/Geant/TensorflowGraph.cpp: TensorflowGraph::runGraph"]}
{"id": "C116", "title": "The surrogate process frees what it allocates", "statement": "After every history of loading models, crossings and deletions by Geant4, destroying the surrogate process is defined, frees every model once and frees no photon that Geant4 owns.", "quantifier": "every history of calls", "why_tests_cant": "Histories are unbounded, and freeing a pointer that was never set may pass unnoticed in a test.", "anchors": ["Source/Geant/G4CascadeTF.cpp: G4CascadeTF::~G4CascadeTF", "Source/Geant/G4CascadeTF.cpp: G4CascadeTF::LoadGraphs", "Source/Geant/TensorflowGraph.cpp: TensorflowGraph::~TensorflowGraph"]}
{"id": "C117", "title": "The electron leaves the surrogate with the momentum that it predicts", "statement": "For every crossing, the kinetic energy and direction that the surrogate proposes to Geant4 are those of an electron with the sampled momentum.", "quantifier": "every model, every scale, every draw", "why_tests_cant": "It must hold for every momentum; at the energies of typical tests a rest energy more or less is within tolerance.", "anchors": ["Source/Geant/G4CascadeTF.cpp: G4CascadeTF::PostStepDoIt"]}
{"id": "C118", "title": "The emissions of a lepton have no memory", "statement": "Over independent uniform random numbers, the complete emission history of a lepton (the steps in which it emits and the number that selects each photon) has the law of the ideal radiation process: in each step it emits with probability 1 - exp(-dt times the tabulated rate at its current state), whatever it has emitted before, and a fresh uniform number selects the photon.", "quantifier": "every field, pusher, table and initial lepton for which the table lookups succeed, every number of steps, every set of histories, every photon sampling fraction and energy threshold", "why_tests_cant": "It is a statement about a probability distribution on histories of any length; sampling can only compare a few of its moments to a finite precision.", "anchors": ["Source/Physics/Processes/StochasticEmission.cpp: StochasticEmission::Interact", "Source/Particles/Particle.cpp: Particle::InitOpticalDepth, Particle::UpdateOpticalDepth", "Source/Exec/QEDCASC.cpp: main"]}
{"id": "C119", "title": "Fields given to the Geant4 emission process are taken in SI units", "statement": "The field that acts on a Geant4 track is the one that was asked for in SI units: a static field has the given strengths, a plane laser the given amplitude and wavelength and the speed of light, and a Gaussian pulse reaches the centre when light from its start point would.", "quantifier": "every field strength, wavelength, duration, waist, direction, start and focus, every time and place", "why_tests_cant": "It compares fields at every point of space and time; runs only show emission rates, which are zero or saturated when the scale is wrong by eighteen orders of magnitude.", "anchors": ["Source/Geant/G4StochasticEmission.cpp: SetStaticField, SetPlaneField, SetGaussianField", "Source/Tools/UnitsSystem.cpp: SetUnitsSI"]}
{"id": "C120", "title": "The lasers are solutions of Maxwell's equations", "statement": "The fields of a laser satisfy Maxwell's equations in vacuum at every time and place.", "quantifier": "every amplitude, wavelength, duration, waist, polarisation angle and direction, every time and place", "why_tests_cant": "The equations relate derivatives at every point of space and time; a sampled comparison cannot tell a solution from a field that only looks like a wave along its axis.", "anchors": ["Source/Physics/Fields/EMField/PlaneEMField.cpp: PlaneEMField::GetField", "Source/Physics/Fields/EMField/GaussianEMField.cpp: GaussianEMField::GetField", "Source/Physics/Fields/EMField/FocusingField.cpp: FocusingField::GetField"]}
{"id": "C121", "title": "The pushers are of fourth order", "statement": "The position and momentum computed by a pusher differ from the motion under its force by at most a constant times the fourth power of the time step, so that halving the step divides the error bound by sixteen.", "quantifier": "every living particle with mass, every field with four continuous derivatives along its way, every length of time, every small enough time step and every number of pushes within that time, for the Lorentz, Landau and modified Landau pushers", "why_tests_cant": "An order of convergence is a statement about all small steps at once; a test compares finitely many steps of one field in which the errors may cancel.", "anchors": ["Source/Physics/ParticlePushers/ParticlePusher.cpp: ParticlePusher::PushParticle", "Source/Physics/ParticlePushers/LorentzPusher.cpp: LorentzPusher::PushMomentum", "Source/Physics/ParticlePushers/LandauPusher.cpp: LandauPusher::PushMomentum", "Source/Physics/ParticlePushers/ModifiedLandauPusher.cpp: ModifiedLandauPusher::PushMomentum"]}
{"id": "C122", "title": "The shipped example does what it says", "statement": "Running the program on the example input file that comes with it reads the values written there, collides a hundred electrons, each in its own event, with a counter-propagating laser pulse that reaches its full strength at the origin before the end, takes 10000 time steps per event, fills one histogram with the primaries and one with the final particles, and saves them.", "quantifier": "all random numbers, all contents of uninitialised memory and every run of the program on the shipped example with the shipped tables", "why_tests_cant": "The outcome has to hold for every sequence of random numbers; a test runs the example with one of them, and a result that looks right says nothing about the values that were read.", "anchors": ["example/example.ini", "Source/Exec/QEDCASC.cpp: main", "Source/IO/Input/FileParser.cpp: FileParser", "Source/IO/Output/OutputManager.cpp: OutputManager::OutputHist"]}
{"id": "C123", "title": "A simulation started from Python comes back", "statement": "After any sequence of calls on a run manager, beamOn has no undefined behaviour and comes back to Python after finitely many time steps: it runs, or it declines or raises an exception.", "quantifier": "all histories of calls on a run manager, all settings, numbers of events and threads, and all random numbers", "why_tests_cant": "Termination and the absence of undefined behaviour have to hold for every history and every setting; a test that never returns tells nothing about the next one.", "anchors": ["Source/Python/RunManager.cpp: RunManager::beamOn", "Source/Python/RunManager.cpp: RunManager::setTime", "Source/Particles/SourceGenerator.cpp: SourceGenerator::GenerateList"]}
{"id": "C124", "title": "The shipped Python example does what it says", "statement": "The Python example that comes with the program collides 1000 electrons of 510 MeV with a counter-propagating laser pulse that reaches its full strength at the origin before the end, follows each for 2000 time steps, and returns 1000 primaries and 1000 electrons of weight one, no positrons and the emitted photons with their weights.", "quantifier": "all contents of uninitialised memory, all random numbers, all assignments of events to threads, builds with and without OpenMP, and all tables of the proper shape", "why_tests_cant": "The arrays have to be right for every sequence of random numbers and every schedule of the two threads; a test runs the script with one of each and in one build.", "anchors": ["example/QEDCascPy_example.py", "Source/Python/RunManager.cpp: RunManager::beamOn", "Source/Python/RunManager.cpp: RunManager::getPhotons", "Source/Physics/Processes/ContinuousEmission.cpp: ContinuousEmission::Interact"]}
{"id": "C125", "title": "The photons of a classical or semiclassical run stand for what is radiated", "statement": "In a run with the classical or semiclassical model, the weighted photons that are stored stand, on average over the random numbers, for the spectrum that the lepton radiates along its path: the expected weighted sum of any function of the photon momentum is the sum, over the time steps, of the weight of the lepton times the number of photons radiated in the step times the mean of that function over the spectrum, whatever the sample fraction.", "quantifier": "all fields, pushers, leptons, tables, numbers of time steps, sample fractions and thresholds, and all functions of the photon momentum", "why_tests_cant": "The claim is about the mean over all random numbers of every possible diagnostic of a whole event; a test can only sample it with statistical error for one diagnostic.", "anchors": ["Source/Physics/Processes/ContinuousEmission.cpp: ContinuousEmission::Interact", "Source/Exec/QEDCASC.cpp: main", "Source/Particles/ParticleList.cpp: ParticleList::AddParticle"]}
{"id": "C126", "title": "A lepton gains no more momentum than the fields give it", "statement": "In electric and magnetic fields whose strengths add up to at most F, a lepton of charge q gains at most |q| F of momentum per unit of time, with each of the pushers: radiation reaction never adds to its momentum. Its quantum parameter is at most its Lorentz factor times the strength of the fields where it is.", "quantifier": "all fields of bounded strength, leptons, time steps and numbers of time steps, and the three pushers", "why_tests_cant": "The bound is over every field, trajectory and number of steps, and with radiation reaction it depends on the time step in a way no finite set of runs shows.", "anchors": ["Source/Physics/ParticlePushers/ParticlePusher.cpp: ParticlePusher::PushParticle", "Source/Physics/ParticlePushers/LorentzPusher.cpp: LorentzPusher::PushMomentum", "Source/Physics/ParticlePushers/LandauPusher.cpp: LandauPusher::PushMomentum", "Source/Physics/ParticlePushers/ModifiedLandauPusher.cpp: ModifiedLandauPusher::PushMomentum", "Source/Physics/Processes/PhotonEmission.cpp: PhotonEmission::CalculateEta"]}
{"id": "C127", "title": "The energy of a cascade comes from its primary and the fields", "statement": "When a lepton emits a photon, and when a photon becomes a pair, energy and momentum are both the same before and after, up to what the field takes part in. Over an event the energy of all particles is at most the energy of the primary plus what the fields can have done in work on the charged particles.", "quantifier": "all emissions and conversions, and all events: fields of bounded strength, time steps, tables, primaries and draws", "why_tests_cant": "The balance is a bound over every sequence of draws and every number of time steps; the excess of one emission is far below the precision of a test at high energy and grows with the number of photons.", "anchors": ["Source/Physics/Processes/StochasticEmission.cpp: StochasticEmission::Interact", "Source/Physics/Processes/NonLinearBreitWheeler.cpp: NonLinearBreitWheeler::Interact", "Source/Physics/ParticlePushers/LorentzPusher.cpp: LorentzPusher::PushMomentum", "Source/Exec/QEDCASC.cpp: main"]}
{"id": "C128", "title": "A parallel run simulates the events asked for, once", "statement": "Started with several MPI processes, the program simulates the numbers of particles that the input file asks for, shared among the processes: the tables and histograms hold every event once, with one event per number, whatever the number of processes and the order in which they run.", "quantifier": "all input files without undefined behaviour, numbers of processes, random numbers of each process and schedules of the communication", "why_tests_cant": "It must hold for every number of processes and every interleaving of their messages; a test runs one schedule on one machine.", "anchors": ["Source/Exec/QEDCASC.cpp: main", "Source/IO/Output/OutputManager.cpp: OutputEventsMPI", "Source/IO/Output/OutputManager.cpp: OutputHistMPI"]}
{"id": "C129", "title": "A laser pulse asked for in SI units is that pulse", "statement": "A Gaussian laser described in SI units, in an input file or from Python, has at every place and time the field strength of a pulse with that peak field, wavelength, duration and waist, that starts at the given point, moves with the speed of light and is focused at the given focus.", "quantifier": "all parameters, places, times, input files and histories of calls", "why_tests_cant": "It must hold at every place and time and for all parameters; tests look at a few points in internal units.", "anchors": ["Source/Physics/Fields/EMField/GaussianEMField.cpp: GetField", "Source/Python/RunManager.cpp: setField", "Source/IO/Input/FileParser.cpp: ReadField", "Source/Tools/UnitsSystem.cpp"]}
{"id": "C130", "title": "A bunch has the place, size, length and spread asked for", "statement": "The particles of a source form one bunch about its direction: starting points are independent and normally distributed about the given place, with the given width across the direction and the given length along it; the angles to the direction are normally distributed with the given divergence, with every azimuth alike; the energies follow the given spectrum.", "quantifier": "all configurations of a source, and the joint distribution of all its particles", "why_tests_cant": "It is a statement about the joint distribution of all samples for every configuration; a finite sample cannot establish it, and the program cannot be seeded.", "anchors": ["Source/Particles/SourceGenerator.cpp: SourceGenerator::SourceGenerator", "Source/Particles/SourceGenerator.cpp: SourceGenerator::GenerateList", "Source/Tools/MCTools.cpp: SampleNorm, SampleUniform", "Source/Tools/ThreeVector.hh: RotateToAxis"]}
{"id": "C131", "title": "Massive particles never outrun light, in double precision", "statement": "With the rounding of IEEE doubles, for every field, every pusher and every number n of pushes, a lepton whose coordinates stay finite is never displaced by n*dt or more in n steps of size dt, and the speed it reports is below the speed of light.", "quantifier": "all fields and force laws (arbitrary functions on doubles), all momenta, positions, time steps and numbers of pushes", "why_tests_cant": "the excess is a few units of rounding and depends on the bits of every operand; tests sample a few momenta out of 2^192", "anchors": ["Source/Physics/ParticlePushers/ParticlePusher.cpp: PushParticle, PushPosition", "Source/Particles/Lepton.cpp: GetBeta, GetGamma"]}
{"id": "C132", "title": "Repeated names and continued lines", "statement": "Reading a settings file, the value of a name in a section consists of all values given for it there, in file order and separated by line breaks; indented lines continue the value of the name before them; names given nowhere have the default.", "quantifier": "all files, sections and names, any number of repetitions and continued lines", "why_tests_cant": "It is about all files; the buffers that limit it (200 characters per line, 49 per name) are compile-time constants that short test files never reach.", "anchors": ["Source/IO/Input/ini.cpp: ini_parse_stream", "Source/IO/Input/INIReader.cpp: ValueHandler, Get, HasValue"]}
{"id": "C133", "title": "Emission and pair production at the right rates as the time step goes to zero", "statement": "For a lepton moving by the Lorentz force through smooth fields, the probability that it has emitted no photon after a time T tends, as the time step goes to zero, to exp(-integral of W dt) with W the emission rate at the particle's true position and momentum. For a photon the probability that it has not become a pair tends to exp(-integral of W dt) with W the pair production rate along its straight path. This holds as long as the quantum parameter stays inside the table of rates: with the tables that come with the program, eta between 1e-5 and 10 and chi between 1e-5 and 1e8.", "quantifier": "all smooth fields, tables, particles, durations, and all other processes in the run, in the limit of small steps", "why_tests_cant": "It is about a limit of probabilities over all step sizes and all generator draws; a test sees a few events at one step size.", "anchors": ["Source/Physics/Processes/StochasticEmission.cpp: Interact", "Source/Physics/Processes/NonLinearBreitWheeler.cpp: Interact, CalculateChi", "Source/Physics/ParticlePushers/LorentzPusher.cpp: PushParticle", "Source/Tools/Numerics.hh: Interpolate1D"]}
{"id": "C134", "title": "The Geant4 process radiates what the program would", "statement": "What the emission process hands to Geant4 after a step (the energy and direction of the lepton, and of every secondary photon in order) is what the cascade program computes for the same lepton with the same field, time step, end time and random draws and emission as its only process; the process succeeds exactly when the program does.", "quantifier": "all tracks, fields, tables, time steps, end times and random draws, any number of internal steps and photons, any arithmetic", "why_tests_cant": "It compares two loops over all histories, including ones where the particle list is full; tests need Geant4 and see single tracks.", "anchors": ["Source/Geant/G4StochasticEmission.cpp: PostStepDoIt", "Source/Physics/ParticlePushers/ParticlePusher.cpp: PushParticleList", "Source/Exec/QEDCASC.cpp: main"]}
{"id": "C135", "title": "Uniform random numbers", "statement": "RandDouble(low, high) with low < high returns a number from low up to but not including high, and the probability that it lies in a part of the range is the length of the part divided by high - low; SampleUniform gives one such number per draw.", "quantifier": "all ranges and draws", "why_tests_cant": "Samples cannot establish a law or an open end of a range; the draw that breaks the open end has probability 2^-53.", "anchors": ["Source/Tools/MCTools.cpp: RandDouble, SampleUniform"]}
{"id": "C136", "title": "The optical depth in double precision", "statement": "In the double precision arithmetic of the program, a lepton radiates when the amounts of its steps come to its optical depth, up to the rounding of the differences; in particular, a lepton that uses up a positive amount in every step radiates after finitely many steps.", "quantifier": "all optical depths, all sequences of amounts, all fields and leptons", "why_tests_cant": "The error is a sum over all steps of a run, and the loss needs a step much smaller than those a test uses; no finite number of steps shows that a lepton never radiates.", "anchors": ["Source/Particles/Particle.cpp: UpdateOpticalDepth, InitOpticalDepth", "Source/Physics/Processes/StochasticEmission.cpp: Interact"]}
{"id": "C137", "title": "A run started from Python simulates what the program would with the same settings", "statement": "For settings that can be given both in an input file and through the Python interface, a run started with beamOn gives the same particles after the run as the program does when it reads the file: same random numbers and tables, same events, each simulated to the same final state, on any number of threads. Every value that one interface accepts means the same in the other.", "quantifier": "all settings of time, field, physics, beam and sampling, in every order and with every repetition of the calls; all random numbers, tables and numbers of threads", "why_tests_cant": "Two separate pieces of code turn the settings into a simulation; agreement on some settings says nothing about the others, and neither program reports its random numbers.", "anchors": ["Source/Python/RunManager.cpp: setTime, setField, setPhysics, setGenerator, setSampleFraction, usePairProduction, beamOn", "Source/Exec/QEDCASC.cpp: main", "Source/IO/Input/FileParser.cpp: FileParser"]}
{"id": "C138", "title": "Charges move in a plane laser as the exact solution says", "statement": "In the field of a plane laser, for every polarisation, the energy of a charged particle less its momentum along the laser stays the same up to a constant times the fourth power of the time step, and its momentum across the laser changes by its charge times the integral of the electric field over the part of the wave that has passed it, up to the same error.", "quantifier": "all plane lasers, all charged particles and start times, all durations and time steps", "why_tests_cant": "The conserved quantities hold at every moment of every track; a test sees some tracks at some time steps and cannot tell a small violation from the discretisation error.", "anchors": ["Source/Physics/Fields/EMField/PlaneEMField.cpp: GetField", "Source/Physics/ParticlePushers/LorentzPusher.cpp: PushMomentum", "Source/Physics/ParticlePushers/ParticlePusher.cpp: PushParticle"]}
{"id": "C139", "title": "A charge circling in a magnetic field loses energy as classical electrodynamics says", "statement": "With the classical radiation reaction pusher, a charge that moves across a uniform magnetic field loses energy at the rate of the power it radiates, 2/3 alpha eta^2 with eta its momentum times the field over its mass, at every speed and up to the error of the time stepping.", "quantifier": "all magnetic fields, all charged particles moving across the field, all durations and time steps", "why_tests_cant": "A test at high energy sees agreement and cannot settle slow particles; a measured loss over some steps cannot be told from the discretisation error.", "anchors": ["Source/Physics/ParticlePushers/LandauPusher.cpp: PushMomentum", "Source/Physics/ParticlePushers/ParticlePusher.cpp: PushParticle", "Source/Physics/Fields/EMField/StaticEMField.cpp: GetField"]}
{"id": "C140", "title": "Results do not depend on the motion of the observer", "statement": "Simulating the same particle in the same field from another inertial frame gives the same results: the tracks are those of the first frame transformed to the other, up to the time steps, and a lepton emits and a photon converts between the same two events with the same chance.", "quantifier": "all changes of inertial frame, all fields, all particles, all durations and time steps, all runs", "why_tests_cant": "A test compares two frames at one time step, where the two runs differ by their discretisation errors and by chance; it cannot show that they agree in the limit, for every frame and field.", "anchors": ["Source/Physics/ParticlePushers/ParticlePusher.cpp: PushParticle", "Source/Physics/ParticlePushers/LorentzPusher.cpp: PushMomentum", "Source/Physics/ParticlePushers/LandauPusher.cpp: PushMomentum", "Source/Physics/ParticlePushers/ModifiedLandauPusher.cpp: PushMomentum", "Source/Physics/Processes/StochasticEmission.cpp: Interact", "Source/Physics/Processes/NonLinearBreitWheeler.cpp: Interact"]}
{"id": "C141", "title": "Mirror images agree bit for bit", "statement": "In double precision, with all rounding, reversing any of the coordinate axes in an experiment (with the field as it looks in the mirror) reverses these coordinates of all positions, momenta and recorded tracks and changes no other bit: the same random numbers are used, and energies, weights, optical depths, histograms, the number of steps and the way the run ends are identical. So in a field symmetric about a coordinate plane, particles that start and move in this plane never drift out of it by rounding.", "quantifier": "all eight combinations of reversed axes, all fields, pushers, process lists, tables, initial particles, histograms and random sequences of doubles, including infinities and NaN; all events, including those that abort", "why_tests_cant": "bitwise symmetry must hold for every value of every intermediate result, including overflow and rounding ties; a test sees a few values and usually compares with a tolerance", "anchors": ["Source/Exec/QEDCASC.cpp: main event loop", "Source/Physics/ParticlePushers/*.cpp", "Source/Physics/Processes/*.cpp", "Source/Tools/ThreeVector.hh: Dot, Cross, Mag, Norm"]}
{"id": "C142", "title": "Watching an event does not change it", "statement": "With the same random numbers an event goes through the same steps and ends with the same particles, whatever is recorded of it: tracking particles, filling histograms and saving tables changes no particle, uses no random number, and does not change how or when the run ends. Each record shows what it would show if it were the only one.", "quantifier": "all kinds of numbers (real and double precision), pushers, fields, process lists, initial particles, random sequences, histograms, tracking and output settings; all events, including those that abort; all numbers of events of a source", "why_tests_cant": "every combination of recording options, with every event, would have to be compared with the same event unrecorded", "anchors": ["Source/Exec/QEDCASC.cpp: main event loop", "Source/Particles/Particle.cpp: UpdateTrack", "Source/IO/Output/Histogram.cpp: AppParticle", "Source/IO/Output/OutputManager.cpp: StoreSource, StoreTrack, OutputHist"]}
{"id": "C143", "title": "Straight flight in double precision", "statement": "In double precision, with all rounding, photons in any field and leptons where there is no field keep their momentum in every bit, and after k steps their position and their clock differ from those of the exact straight flight at the speed of light (or p/gamma) by at most k (16 dt + 2 L) / 2^53, where L bounds the distance from the origin and the time. This needs steps between 2^-400 and 2^500 and momenta of photons, and of leptons with radiation reaction, between 2^-400 and 2^500 in the code's units; outside, lengths underflow or overflow and photons are sent to infinity or stand still. Far from the origin the error is as large as the motion itself: a photon whose step is less than half the spacing of doubles there never moves.", "quantifier": "all doubles for positions, momenta, times and steps within the stated ranges, all pushers and fields for photons, all pushers and both charges for leptons (also at rest, without radiation reaction), all numbers of steps up to 2^40", "why_tests_cant": "rounding errors depend on every bit of every value and accumulate over arbitrarily many steps; a test compares a few flights with a tolerance chosen by eye", "anchors": ["Source/Physics/ParticlePushers/ParticlePusher.cpp: PushParticle, PushPosition", "Source/Physics/ParticlePushers/LorentzPusher.cpp: PushMomentum", "Source/Tools/ThreeVector.hh: Mag"]}
{"id": "C144", "title": "Trajectories in double precision follow the exact scheme", "statement": "An electron or positron moved in double precision by the Lorentz pusher stays close to the one moved by the same Runge-Kutta scheme with exact real numbers. After k steps of length dt its clock and each coordinate of its position differ by at most k exp(k L dt) eps and its momentum by at most F times that, with explicit constants: F bounds the coordinates of the field, eps is 10 (gamma / 2^53 + dt kappa) / F + 2 X / 2^53 + 40 (1 / 2^53 + dt kappa / gamma) dt, X bounds coordinates and times, kappa is the error of the computed field, and L is the rate at which neighbouring trajectories part (10 F / gamma in a constant field, 12 k + 20 A / gamma in a plane wave of amplitude A and wave number k, whose computed field is off by at most A (300 k X + 60) / 2^53). This holds as long as the bound is small against X and the momentum, 16 F dt <= 1 and all sizes lie between 2^-190 and 2^189. Against the true solution of the equations of motion the computed position and momentum are off by at most C dt, the error of the scheme with an explicit C, plus these errors of rounding.", "quantifier": "all doubles for position, momentum, time and step within the stated ranges, both charges, all constant fields and plane waves (and any field with a known error and gradient), all numbers of steps", "why_tests_cant": "every operation rounds, the errors feed back through the field and the Lorentz factor, and tests have no exact trajectory to compare with", "anchors": ["Source/Physics/ParticlePushers/ParticlePusher.cpp: PushParticle, PushPosition", "Source/Physics/ParticlePushers/LorentzPusher.cpp: PushMomentum", "Source/Physics/Fields/EMField/StaticEMField.cpp: GetField", "Source/Physics/Fields/EMField/PlaneEMField.cpp: GetField"]}
{"id": "C145", "title": "Photons carry what radiation reaction takes", "statement": "In a classical or semiclassical run the photons of a lepton carry, on average over the random numbers, the momentum that radiation reaction takes from it (weights included). The exact law is that in each step the photons carry sqrt(3) alpha / pi times the tabulated total times the mean of the tabulated photon parameter, and reaction takes 2/3 alpha eta^2 (times the Gaunt factor in the semiclassical case, nothing for the Lorentz pusher), so the balance holds if and only if the two agree in each step. With the tables that come with the program they do not: in a classical run the photons carry at most 98 percent of what is lost, whatever the field, and a semiclassical run can radiate more than is lost.", "quantifier": "all classical and semiclassical runs over the reals, all fields, pushers and steps within the tables, all tables (exact law and criterion) and the shipped ones (the two refutations), all numbers of steps and sample fractions", "why_tests_cant": "an average over all random numbers cannot be measured exactly, and photons and pusher take their numbers from different tables and formulas that would have to agree at every quantum parameter", "anchors": ["Source/Physics/Processes/ContinuousEmission.cpp: Interact", "Source/Physics/Processes/PhotonEmission.cpp: CalculateEta, CalculateChi", "Source/Physics/ParticlePushers/LandauPusher.cpp: PushMomentum", "Source/Physics/ParticlePushers/ModifiedLandauPusher.cpp: PushMomentum", "Tables/hsokolov.table", "Tables/ksi_sokolov.table", "Tables/chimin.table"]}
{"id": "C146", "title": "The check file shows what a run uses", "statement": "The file input-check.txt, which the program writes for the user to check the input, shows every parameter of the run. In fact two inputs have the same check file if and only if they differ at most in the amplitude of a plane wave, the polarisation of a pulse, the energy distribution of sources and the quantity that histograms count: these are not shown. Everything else is, but numbers appear converted to internal units. For an input that lacks a required entry the check file of the run before stays; for one rejected later it is empty.", "quantifier": "all inputs, all input files and readers, all earlier check files", "why_tests_cant": "an omission shows only when two inputs that differ in exactly that parameter are compared, for each parameter and each kind of field", "anchors": ["Source/IO/Input/FileParser.cpp: FileParser, ~FileParser, CheckVitals, ReadGeneral, ReadField, ReadPhysics, ReadParticles, ReadHistograms"]}
{"id": "C147", "title": "With ever smaller time steps the sampled spectrum converges", "statement": "As the time step goes to zero the mean, over the random numbers, of any continuous observable summed with weights over the photons that classical or semi-classical emission records (number, energy, a bin of a spectrum that is smoothed) goes to the integral, along the true path of the lepton, of the rate of emission times the mean of the observable over the tabulated spectrum. It holds for each pusher, each field that is smooth along the path and each fraction of sampled photons, while the quantum parameter stays inside the tables. It needs a particle list that grows with the number of steps: with a list of fixed size and every photon sampled, the mean goes to zero instead.", "quantifier": "all smooth fields, all leptons of positive mass, all durations, all tables of proper shape, all sample fractions in (0, 1], all continuous non-negative observables that vanish below the threshold energy", "why_tests_cant": "it is a statement about a limit of means over all random numbers; a test sees one step size and a finite sample", "anchors": ["Source/Physics/Processes/ContinuousEmission.cpp: Interact", "Source/Physics/Processes/PhotonEmission.cpp: CalculateEta, CalculateChi", "Source/Particles/ParticleList.cpp: AddParticle", "Source/Physics/ParticlePushers/ParticlePusher.cpp: PushParticle"]}
{"id": "C148", "title": "With ever smaller time steps the first emission gets the right time and the right photon", "statement": "A lepton that radiates stochastically has, in any run, either no emission or exactly one first emission, and until then moves as if it could not radiate. Over the random numbers, the first emission falls in a step with the probability that none fell before times one minus the exponential of minus the expected number of emissions in that step, and the photon is drawn from the spectrum at that place. As the time step goes to zero the joint law of the time of the first emission and of the momentum it takes from the lepton converges to that of the theory: survival exp(-integral of the rate) along the path without radiation, times the rate at the time of emission, times the tabulated spectrum there. The probability that there is an emission goes to 1 - exp(-integral of the rate).", "quantifier": "all random numbers, all smooth fields, all pushers, all leptons of positive mass, all durations, all tables of proper shape, all thresholds and sample fractions, all continuous non-negative observables of the time times an observable of the momentum lost", "why_tests_cant": "it is the law of a random time and its limit for vanishing steps; a test sees a sample at one step size", "anchors": ["Source/Physics/Processes/StochasticEmission.cpp: Interact", "Source/Physics/Processes/PhotonEmission.cpp: CalculateEta, CalculateChi", "Source/Particles/Particle.cpp: InitOpticalDepth", "Source/Physics/ParticlePushers/ParticlePusher.cpp: PushParticle"]}
{"id": "C149", "title": "With ever smaller time steps a photon turns into a pair at the right time and shares its energy as the tables say", "statement": "A photon alone in an event with pair production either stays alone or makes exactly one pair, in one step, and is then dead. The pair is made where the photon is, along its direction, a positron with the share of the energy that the tables give for one random number and an electron with the rest. Over the random numbers, the pair is made in a step with the probability that none was made before times one minus the exponential of minus the expected number of conversions in that step. As the time step goes to zero the joint law of the time of the conversion and of the two momenta converges to that of the theory: survival exp(-integral of the rate) along the straight path of the photon, times the rate there, times the tabulated law of the share at the quantum parameter there. The probability that there is a pair goes to 1 - exp(-integral of the rate).", "quantifier": "all random numbers, all smooth fields, all photons, all durations, all tables of proper shape with shares that leave each lepton its rest energy, all continuous non-negative observables of the time and the two momenta", "why_tests_cant": "it is the joint law of a random time and a random share and its limit for vanishing steps; a test sees a sample at one step size", "anchors": ["Source/Physics/Processes/NonLinearBreitWheeler.cpp: Interact, CalculateSplit, CalculateChi", "Source/Particles/Particle.cpp: InitOpticalDepth, UpdateOpticalDepth", "Source/Physics/ParticlePushers/ParticlePusher.cpp: PushParticle"]}
{"id": "C150", "title": "Mistakes in the settings file are noticed", "statement": "A settings file with a mistake does not run as if the mistake were not there: a line that cannot be read, a name the program does not know, or a word where a number or a truth value is expected ends the program with an error. In fact such a line or name changes nothing, a word in the place of a number is taken as the default, and any word that does not mean true is taken as false; what the program does depends on the file only through the names it knows.", "quantifier": "all files with lines of up to 199 characters, all places in them, all unknown names, all words, all tables, command lines, random numbers and run lengths", "why_tests_cant": "it compares the complete behaviour for every pair of files that differ in such a place", "anchors": ["Source/IO/Input/ini.cpp: ini_parse_stream", "Source/IO/Input/INIReader.cpp: ParseError, GetReal, GetInteger, GetBoolean", "Source/IO/Input/FileParser.cpp: FileParser, CheckVitals, ReadGeneral, ReadField, ReadParticles, ReadPhysics, ReadHistograms", "Source/Exec/QEDCASC.cpp: main"]}
{"id": "C151", "title": "A lepton at rest is simulated like any other", "statement": "A lepton that is at rest, or almost, keeps a position, momentum and energy that are numbers, and it radiates later when it moves through a strong field. In fact, in double precision, the first push with radiation reaction turns its position, momentum and energy into NaN whatever the field, and with quantum emission it never emits a photon in the whole event, because its optical depth has become NaN.", "quantifier": "all leptons with momentum components up to 2^-550, all fields, time steps, numbers of pushes, tables, random numbers and events; for leptons that move, all momenta from 2^-400 to 2^200 and fields up to 2^200", "why_tests_cant": "it must hold for every field a lepton may meet and for events of every length", "anchors": ["Source/Physics/Processes/PhotonEmission.cpp: CalculateEta", "Source/Physics/Processes/StochasticEmission.cpp: Interact", "Source/Physics/ParticlePushers/LandauPusher.cpp: PushMomentum", "Source/Physics/ParticlePushers/ModifiedLandauPusher.cpp: PushMomentum", "Source/Particles/Particle.cpp: GetDirection", "Source/Tools/ThreeVector.hh: Norm"]}
{"id": "C152", "title": "A photon from outside a laser pulse can make a pair in it", "statement": "A photon that starts where there is no field, and runs into a strong laser pulse later, can decay into an electron and a positron there. In fact, in double precision and with the tables that come with the program, the first time step that ends where the field is zero turns the optical depth of the photon into NaN, and it never makes a pair in the whole event. Such places are every place at least 30 pulse lengths before or behind a Gaussian pulse, where its exponential underflows, and every place where the program cuts off a focusing pulse.", "quantifier": "all folders of the shipped tables, pushers, photons, lists, time steps, random numbers and events, all Gaussian pulses longer than 2^-200 and all focusing pulses; for photons in a field, all momenta from 2 to 2^100 and fields up to 2^100", "why_tests_cant": "it must hold for every pulse and for events of every length; a short test starts the photon inside the pulse", "anchors": ["Source/Physics/Processes/NonLinearBreitWheeler.cpp: Interact, CalculateChi", "Source/Tools/Numerics.cpp: Interpolate1D", "Source/Physics/Fields/EMField/GaussianEMField.cpp: GetField", "Source/Physics/Fields/EMField/FocusingField.cpp: GetField", "Tables/pairprod.table"]}
{"id": "C153", "title": "A lepton outside a laser pulse is left alone", "statement": "An electron or positron that moves where there is exactly no field loses no energy, radiates nothing, and uses none of its optical depth, so that it can radiate when it meets the pulse. This holds in double precision, for each process by itself and for whole events: at the end the particles are those at the start, moved by the pusher, in the same order. With quantum emission no random number is drawn. Outside the limit at which the program cuts off a focusing pulse the field is exactly zero. So is it 30 pulse lengths or more before or behind a Gaussian pulse, where its exponential underflows.", "quantifier": "all settings of the processes, tables of any content, pushers, lists, random numbers and events of any length; leptons of momentum from 2^-400 to 2^200, time steps up to 2^50", "why_tests_cant": "it must hold for every lepton, every place outside the pulse and every table, and 0/0 hides in the quantities computed there", "anchors": ["Source/Physics/Processes/StochasticEmission.cpp: Interact", "Source/Physics/Processes/ContinuousEmission.cpp: Interact", "Source/Physics/Processes/PhotonEmission.cpp: CalculateEta", "Source/Physics/Fields/EMField/FocusingField.cpp: GetField"]}
{"id": "C154", "title": "A lepton emits as many photons as the rate along its path says", "statement": "With quantum emission the photons that a lepton emits are, on average over the random numbers, as many as the sum over its time steps of the expected number of emissions in the step, and the mean total of any other quantity of the photons (energy, a bin of a spectrum) follows in the same way. This is false of every lepton that can emit: no more than one photon comes out of one step, the rest of the step is forgotten, and the mean is the sum of 1 - exp(-rate) instead of the rate. The loss is below half the number of emissions expected in a step; in strong fields or long steps the number of photons saturates at the number of steps.", "quantifier": "every field, pusher, table and lepton for which the table lookups succeed, every number of steps, every non-negative quantity of a photon that can be integrated over the spectrum; for the bound on the list, every event with any particles and any random numbers", "why_tests_cant": "it is about the mean over all random numbers of any quantity along a path that itself depends on them; a sample has a statistical error of the same size as the bias", "anchors": ["Source/Physics/Processes/StochasticEmission.cpp: StochasticEmission::Interact", "Source/Particles/Particle.cpp: Particle::InitOpticalDepth, Particle::UpdateOpticalDepth", "Source/Exec/QEDCASC.cpp: main"]}
{"id": "C155", "title": "A time step is one interaction for every particle", "statement": "In one time step a particle interacts at most once, and the particles made in a step are first moved and can first interact in the next step; so a step adds at most one photon for each lepton and one pair for each photon that was there when it began, and at the end of the step all clocks agree. True in effect when only one process is active. False with quantum emission together with pair production: the loop over the particles also visits those that were appended during the same step, so however short the time step is, one step can go through any number of generations, fill the whole particle list from a single electron, and leave clocks that are ahead of the simulation by any number of steps.", "quantifier": "every field, pusher, table, particle list and sequence of random numbers for the bound with one process; for the failure every time step, every capacity of the list and every probability below 1", "why_tests_cant": "the number of generations in a step depends on the random numbers and has no bound; a test with weak fields sees at most one generation", "anchors": ["Source/Exec/QEDCASC.cpp: main", "Source/Particles/ParticleList.cpp: ParticleList::AddParticle", "Source/Physics/Processes/StochasticEmission.cpp: StochasticEmission::Interact", "Source/Physics/Processes/NonLinearBreitWheeler.cpp: NonLinearBreitWheeler::Interact"]}
{"id": "C156", "title": "The events of a run are statistically independent of each other", "statement": "Whatever the earlier events of a source have given - their histograms, the particles they stored, the number of random numbers they used - the next event has the law it would have if its primary were simulated alone with a random number generator that nobody has used: the probability that the earlier events gave some result and the next one another is the product of the two probabilities. So the results of any number of events are independent, and events whose primaries have the same sample are repetitions of one experiment.", "quantifier": "for every field, pusher, list of processes, time step and end time, every source, number of earlier events, output settings and histograms, every property of what the earlier events have written and every property of the particles at the end of the next one", "why_tests_cant": "Independence is a statement about the joint distribution over all streams of random numbers, and dependence through a shared state could show in any pair of observables; a test estimates a few correlations from a sample.", "anchors": ["Source/Exec/QEDCASC.cpp: main", "Source/Particles/SourceGenerator.cpp: SourceGenerator::GenerateList", "Source/Tools/MCTools.cpp: MCTools::RandDouble", "Source/Particles/Particle.cpp: Particle::InitOpticalDepth"]}
{"id": "C157", "title": "More events give better estimates", "statement": "The part of a run's events that end with some property approaches the probability of that property in a single event: among k events whose primaries have the same sample it is within eps of that probability except with a probability of at most 1/(4 k eps^2). Likewise the mean over the events of a number of at most B, such as the number of photons or of pairs, is within eps of its expectation in one event except with a probability of at most B^2/(4 k eps^2). So the statistical error falls like one over the square root of the number of events.", "quantifier": "for every field, pusher, list of processes, time step, source with equal samples, number of events, tolerance, property of the particles at the end of an event and bounded number that depends on them, provided that an event ends with the property or without it, or with one of the values, with probabilities that add up to 1", "why_tests_cant": "a test sees one sample and cannot tell a slow drift or a correlation between events from a statistical fluctuation; the bound is about the distribution over all streams of random numbers and every number of events", "anchors": ["Source/Exec/QEDCASC.cpp: main", "Source/Particles/SourceGenerator.cpp: SourceGenerator::GenerateList", "Source/Tools/MCTools.cpp: MCTools::RandDouble", "Source/Particles/ParticleList.cpp: ParticleList::AddParticle"]}
{"id": "C158", "title": "The arrangement of the settings file does not matter", "statement": "What a run does depends on which settings its file holds and not on where they stand: the sections can come in any order, the entries of a section in any order, a section can be written in one piece or in several, comments and blank lines can stand anywhere, and the names of the entries can be in capitals or not. Two files that hold the same settings, each given once, make the program do the same: the same events, the same output, the same exit code.", "quantifier": "every pair of settings files with the same settings in any arrangement, every set of tables, command line, sequence of random numbers and number of steps", "why_tests_cant": "there are as many arrangements as permutations of the lines and as many files as settings", "anchors": ["Source/IO/Input/INIReader.cpp: INIReader::ValueHandler", "Source/IO/Input/INIReader.cpp: INIReader::GetSections", "Source/IO/Input/ini.cpp: ini_parse_stream", "Source/IO/Input/FileParser.cpp: FileParser::FileParser", "Source/Exec/QEDCASC.cpp: main"]}
{"id": "C159", "title": "In Geant4 a lepton and its photons continue from where the crossing left them", "statement": "When the stochastic process in Geant4 has simulated the crossing of the field by a lepton, Geant4 continues with the lepton from the place that it has reached, later by the time that the crossing took, and with each photon from the place that the photon has reached.", "quantifier": "every field, set of tables, time step, end time, lepton track, global time and sequence of random numbers", "why_tests_cant": "the place reached depends on the field and on every emission; a test sees a few tracks", "anchors": ["Source/Geant/G4StochasticEmission.cpp: G4StochasticEmission::PostStepDoIt", "Source/Physics/ParticlePushers/ParticlePusher.cpp: ParticlePusher::PushParticle"]}
{"id": "C160", "title": "The Python package always works with its own tables", "statement": "A script that imports the installed Python package works with the tables of the source tree that the package was installed from: all the files that the processes open are among the installed ones, whatever the environment variable for the table directory was before, set or not, and whatever other files there are. A program that takes its tables from another directory reads the same ones after the installation as before.", "quantifier": "every source tree, place of the package, value of the environment variable, and content of the file system", "why_tests_cant": "a test runs in one environment and one installation", "anchors": ["Source/Python/QEDCascPy/__init__.py", "Source/Physics/CMakeLists.txt: physics_table_files", "setup.py: setup", "Source/Physics/Processes/PhotonEmission.cpp: PhotonEmission::LoadTables", "Source/Physics/Processes/NonLinearBreitWheeler.cpp: NonLinearBreitWheeler::LoadTables"]}
{"id": "C161", "title": "The histograms of a run are the sums of those of its events", "statement": "Each bin of each histogram holds, when a run has simulated its sources, the sum over the sources, and over the events of each source, of what the event would count into an empty histogram if it were the only one recorded, at the same place in the sequence of random numbers. No event changes what another one has counted or will count, and the settings of the histograms stay what they were. The entry counters add up in the same way, modulo 2^32.", "quantifier": "every field, pusher, list of processes, time step, list of sources, output and tracking settings, histograms and their contents at the start, and sequence of random numbers", "why_tests_cant": "the sum ranges over every event of every source, and the contents over every real number", "anchors": ["Source/Exec/QEDCASC.cpp: main", "Source/IO/Output/Histogram.cpp: Histogram::AppParticle", "Source/IO/Output/Histogram.cpp: Histogram::Histogram"]}
{"id": "C162", "title": "Which photons are kept does not change the motion of the leptons", "statement": "The settings that select which photons a simulation keeps - the energy threshold, the sampling fraction and the tracking of photons - do not change the motion of the leptons: with the same random numbers, a lepton has the same position and momentum after any number of steps.", "quantifier": "every field, pusher, emission table and initial lepton for which the table lookups succeed, every two choices of threshold, sampling fraction and tracking, every number of steps, every set of positions and momenta", "why_tests_cant": "The settings change how many random numbers each emission uses, so two runs can only be compared by their probability laws over all random sequences, or shown to differ for one.", "anchors": ["Source/Physics/Processes/StochasticEmission.cpp: StochasticEmission::Interact", "Source/Physics/Processes/ContinuousEmission.cpp: ContinuousEmission::Interact", "Source/Exec/QEDCASC.cpp: main"]}
{"id": "C163", "title": "The semiclassical radiation reaction is the classical one in weak fields", "statement": "The radiation reaction of the semiclassical model is that of the classical model times a factor between 1 - 8 eta and 1, eta being the quantum parameter, so that in weak fields classical and semiclassical simulations of a lepton agree: if eta stays below a bound, their tracks differ by no more than a difference of 16/3 alpha eta^3 between the forces can do, and the fourth-order error of the integration. In strong fields the factor falls like eta^(-4/3).", "quantifier": "every field, mass, charge, momentum and, for the tracks, every pair of motions that stay where the fields are smooth, every number of steps and every small enough time step", "why_tests_cant": "The bounds hold for all fields and momenta and for tracks of any length; a test compares the two models for some parameters and some step size.", "anchors": ["Source/Physics/ParticlePushers/ModifiedLandauPusher.cpp: ModifiedLandauPusher::PushMomentum, gaunt", "Source/Physics/ParticlePushers/LandauPusher.cpp: LandauPusher::PushMomentum", "Source/Physics/ParticlePushers/ParticlePusher.cpp: ParticlePusher::PushParticle"]}
{"id": "C164", "title": "What the console says about a run is right", "statement": "Built with OpenMP, the program announces the number of events it is going to simulate, and the percentages it prints during the run rise from 0 to less than 100 and tell how much of the run is done.", "quantifier": "every list of sources with any numbers of particles, every number of threads and every way of giving the events to the threads", "why_tests_cant": "The counters wrap only for billions of events, and the percentages depend on the schedule of the OpenMP runtime, on the number of threads and on how the particles are split into sources.", "anchors": ["Source/Exec/QEDCASC.cpp: main (nEvents, threadEvents, the messages)", "Source/Particles/SourceGenerator.hh: SourceGenerator::GetSourceNumber"]}
{"id": "C165", "title": "Histograms are filled in time in double precision", "statement": "In double precision, too, each histogram is filled at the first time step at which the clock of the event has reached its time, or after the last step if there is none, provided the histogram times are non-negative, increasing and at least one time step apart; and this step is at most one away from the exact one.", "quantifier": "all time steps from 2^-1000 to 2^900, end times of up to about 2^26 steps, lists of histogram times that are IEEE doubles, particles, processes and random numbers", "why_tests_cant": "Whether two histogram times fall into the same step depends on how the running sum of time steps has been rounded, which differs for every time step and every number of steps.", "anchors": ["Source/Exec/QEDCASC.cpp: main (time loop, histogram check)"]}
