{
 "C03": "False of the code: turning -y onto +y gives a matrix that leaves -y where it is (ThreeVector.hh:96-105 uses diag(-1,1,-1) for every antiparallel pair). Proved: always a rotation; maps v onto the axis unless nearly antiparallel; for the axis z used by the program within 1e-5 for all v.",
 "C04": "False of the code: ThreeVector.hh:91 discards the normalised vector. Proved: the result is the difference vector, a unit vector only for points one unit apart.",
 "C06": "False of the code: at the last sample point Interpolate1D extends the first segment (lIndex/hIndex keep their initial 0,1); above it the result is off the straight continuation by one data increment (Numerics.cpp:36-41 measures from the last but one sample but starts at the last datum). Proved: exact values in all three end cases.",
 "C08": "False of the code: ClosestPoints exits with -1 for every query above the last but one sample (compares with size-2). Proved: correct bracketing up to the last but one sample.",
 "C09": "False for even numbers of points (two points and constant 1 give 2/3). Proved: exact on all cubics for every odd number of points from three.",
 "C10": "False of the code: the search starts at index 1, so index 0 is only returned when no cumulative weight exceeds the draw. Proved: index 0 is never drawn for two or more positive weights, and index 1 gets the weight of both; every later index has exactly its weight.",
 "C100": "For exact arithmetic on the numbers in the files. Eta of at least 10^-400 covers every positive double.",
 "C101": "Proved for every tabulated chi and eta except the last one, and between tabulated values, over the real numbers and with the shipped tables. C101_last_refuted: at the last tabulated value nothing is sampled; ClosestPoints ends the program there (C08).",
 "C102": "Proved for every particle that moves, with the field tensor and Lorentz transformations as in textbooks. C102_rest_refuted: at rest the direction is 0/0, so eta is NaN in any field, although the invariant is the electric field strength.",
 "C103": "Over the real numbers. C103_step holds for any force; C103_reaction is stated for momenta that are not zero, because the code divides by their length.",
 "C104": "Over the real numbers, for the Lorentz pusher. The bound here is of first order in the step and needs only Lipschitz fields; the fourth order, also for the Landau pushers, is C121.",
 "C105": "Over the real numbers, for an event with a single initial particle and the draw of its creation; stochastic emission with or without pair production for leptons, pair production with any emission process for photons. The increments use the rate at the end of each push, as the code does.",
 "C106": "False of the code: entry counter and bins are plain shared variables. Proved for all schedules: adding never fails and can always be finished; no bin ever holds too much, and a bin with at least one particle holds at least one; a bin is exact under every schedule if and only if at most one thread has particles for it; without overlapping calls the histogram equals a sequential one; there is a data race exactly when two threads add particles. Model: sequentially consistent micro-steps; which particles a thread adds is fixed beforehand.",
 "C107": "False of the code: the generator is one unlocked object. Proved for all schedules: draws can always be finished, and use only as many elements of the sequence as there are draws; all draws differ under every schedule if and only if at most one thread draws; a data race exists exactly in the other case; two threads can get exactly the same numbers throughout, so that two events are copies of each other. Model: a draw is one read and one write of the generator's position.",
 "C108": "Real arithmetic. Covers the event loop from the generated list to the filled histograms for the three pushers, all processes and any field described with the new axes; the source generator and the input file's field parameters are not covered: turning a plane wave by its polarisation angle is not turning the wave (C108_polarisation_is_no_turn). Where a direction is divided by a zero length the real quotient is 0 in the model on both sides.",
 "C109": "Proved in both directions for events with any of the pushers and radiation processes, in every arithmetic with exact signs: real numbers, real numbers with infinities, and bit for bit in double precision. Pair production is insensitive to the sign of the fields, but with the same draws it gives the same pair and not the exchanged one, so the property fails for single events with pair production; whether it holds in distribution depends on the symmetry of the table of shares and is not proved.",
 "C11": "False of the code: SetSeed seeds the C library generator, which no sampling function uses. Proved: sampling results are a function of the generator state alone and SetSeed leaves it unchanged.",
 "C110": "Holds in any arithmetic; the condition is that every time before the first end is before the second.",
 "C111": "Proved in both directions as long as the particle list does not fill up. A full list drops secondaries of whichever particle comes later, so there the claim is false (refuted with a witness).",
 "C112": "Real arithmetic. Exact conservation is false (C112_refuted: one large step in a uniform magnetic field raises the energy). Proved: the energy is off by at most an explicit constant times the time step, in every smooth field with a potential, and by a constant times its fourth power if the field has four continuous derivatives (C112_fourth_partial); the momentum along a uniform magnetic field is exact.",
 "C113": "Proved for the model of the decompositions (Cholesky factor if there is one, orthonormal eigenvectors otherwise) over the real numbers: C113_law, C113_moments, C113_total, C113_nan_iff.",
 "C114": "False. The variable that is made skew is not a standard normal one: it already has the mean of the component and the square root of its width. C114_refuted: without skew the samples have mean m(1 + s) and variance s^3 instead of m and s^2. C114_law gives the actual distribution, C114_iff_partial says for which parameters it is the right one (width zero, or mean zero and width one).",
 "C115": "False. Missing models are reported by an exception (C115_models_partial), but missing or short files of numbers are not: loading succeeds and the crossings use indeterminate values (C115_refuted). With complete files crossings are as described (C115_complete_partial).",
 "C116": "False. The destructor deletes a pointer that nothing ever sets, after every history (C116_refuted), and models and sessions are never freed (C116_leak). C116_calls_partial: until then every history in which models are loaded first is defined.",
 "C117": "False. The total energy is proposed where Geant4 expects the kinetic energy, for every crossing (C117_refuted); the direction is right (C117_direction_partial).",
 "C118": "C118_law: the probability of every set of histories, C118_mean: the mean of every quantity determined by the history. C118_next spells out the lack of memory, C118_none agrees with C105, C118_state says which state a history leads to, C118_total that no step fails. Stochastic emission is the only process, so that photons draw nothing; with pair production the particles of an event are separated by C111.",
 "C119": "Proved for plane lasers (C119_plane_partial). False for static fields, which are used as multiples of the Schwinger field (C119_static_scale, C119_static_iff, C119_static_refuted), and for the start and focus of a Gaussian pulse, which are used as multiples of the internal unit of length, so that the pulse passes long before light from its start point could (C119_gauss_scale, C119_gauss_refuted).",
 "C120": "True of static fields (C120_static) and of plane lasers exactly when the polarisation angle is a multiple of pi (C120_plane_iff, C120_plane_partial, C120_plane_refuted). False of every Gaussian laser along z (C120_gauss_refuted) and of every focusing laser along z with polarisation angle 0 (C120_focusing_refuted): their carrier does not depend on time (see C78).",
 "C121": "Proved for all three pushers near solutions along which the fields have four continuous derivatives (for the Landau pushers also while the momentum, for the modified one eta, does not vanish). Static fields and plane waves qualify everywhere. In the focal plane z = -1e-99 of the pulses the code divides by zero; in arithmetic with infinities the wave fronts are then flat, and C121_gauss proves the order of the Lorentz pusher through the focus of the Gaussian pulse. The focused pulse qualifies off the surface at which the code cuts it to zero; C121_cut_refuted shows that there the error is of first order in the step.",
 "C122": "False in its last part: with the shipped tables every run of the example ends with an error code or an uncaught exception, so nothing is saved (C122_refuted, from C93). The rest holds: C122_read, C122_setup, C122_steps, C122_histograms, C122_collision and C122_beam. Steps and histograms are those of events that run to their end. Numbers are exact reals.",
 "C123": "False of negative time steps: a beam of photons is then simulated for ever (C123_refuted). False of unknown particle names: exit(-1) ends the interpreter (C123_exit_refuted). C123_undefined_iff_partial says exactly when a call is undefined, given loaded tables and thread numbers in range: an earlier double free (C70) or energies in the wrong order. C123_ends_partial: with a positive step every call ends. Events run one after the other; threads that run at the same time are in C57. Over the real numbers.",
 "C124": "Proved for the calls of the script on a new run manager: the settings that reach the simulation, 2000 steps per event, the pulse and its collision with the beam, the primaries, the paths of the electrons and the shape and contents of the four arrays. The script declines to run in a build without OpenMP because it asks for two threads (C124_refuted), and its two threads race for the samples of the beam (C124_race_refuted). C124_runs_partial: with OpenMP it ends with results or with exit(-1); C124_completes_partial: with results whenever the tables reach up to the quantum parameter along the paths of the electrons; C124_shipped_partial: with results with the shipped tables, unless a sample of the energy is more than 40 standard deviations from the mean. The standard deviations of zero that the script passes for the radius, duration and divergence of the beam violate the precondition of std::normal_distribution, which the model does not enforce.",
 "C125": "C125_law is the complete law of the photons after n steps of an event with a single lepton, including a full list; C125_path says that the lepton's path is independent of the draws. C125_mean_partial, C125_unbiased_partial and C125_number_partial assume that the list has room for one photon per step. C125_capacity_refuted: with the sample fraction 1 the radiation of all steps after the list is full is missing. C125_tables_iff says when the lookups succeed.",
 "C126": "C126_lorentz: without radiation reaction, for every time step. C126_eta: the quantum parameter. With radiation reaction C126_reaction_partial needs that the forces change the momentum by at most half in each step, C126_bound_partial a condition on the start only and gives the bound up to six times what the forces add to a slow particle in a step. C126_refuted: with a time step that is too long the reaction alone turns an electron around and leaves it with many times the momentum the fields could give.",
 "C127": "False of every emission: the photon's momentum is taken from the lepton and the energies after it exceed the energy before by the difference of 1/(E+p) of the lepton after and before (C127_emission_refuted). Every conversion keeps the energy and loses momentum (C127_conversion_refuted). What holds: an emission gains at most sqrt(2) rest energies if the photon has no more energy than the lepton (C127_emission_partial; with the shipped tables C100 gives that), and over an event with the Lorentz pusher and stochastic emission the energy of all particles is at most that at the start, the charge times the field strength times the elapsed time of each particle, and sqrt(2)/2 per draw (C127_event_partial). Missing: pair creation and radiation reaction pushers in the event theorem.",
 "C128": "False of every run with at least two processes: each process simulates all events of the file, so with one source of N particles the table of primaries has n*N rows and n of them carry each event number (C128_refuted, for every schedule). What holds (C128_union_partial): for every input and every number of processes the run is finite, never stuck and ends with the tables of all processes in rank order and the sums of their histograms; on every process every source has its configured number of events. The writing of the file is abstract, see C54. The processes' random numbers are arbitrary.",
 "C129": "Exact: the field strength in SI units is that of the pulse asked for, displaced by minus the focus, at every place and time, for input files (C129_file_displaced) and every history of Python calls (C129_python_displaced); so it is the pulse asked for when the focus is the origin (C129_python_partial). False for every other focus: when light from the start reaches the focus, the field there is below the peak (C129_refuted). The phase has no time in it (C78), and the radius of curvature carries the shift of 1e-99 of the code. Directions within 1e-5 of -z are left out (C25).",
 "C130": "False off axis: the whole bunch, places and momenta, is laid about the direction mirrored in z (see C18), so a bunch asked for off axis has its length along another line and flies along another line. Proved: the exact joint law for every configuration (normal places, normal angles, uniform azimuths to twelve digits of pi, spectrum), that it is the bunch asked for exactly for directions along +z or -z, and that any divergence or any width of a Gaussian spectrum gives every particle a positive chance to fly backwards (the sampled energy is used as a signed momentum). The energies here are sizes of momentum: see C19.",
 "C131": "False of the code: rounding lets a free electron with momentum (15, 8, 0)*2^30 m c move by more than 6 in a step of 6 (C131_overtakes, C131_refuted), and every lepton with a momentum of at least 2^28 m c reports a speed of exactly 1 (C131_beta_refuted). Proved: whenever the coordinates stay finite, for every force law and field, the velocity is at most 1 + 12/2^53 (C131_velocity_partial), a push moves a lepton by at most (1 + 2^-47) dt plus the rounding of the coordinates themselves (C131_push_partial), n pushes by n times that (C131_pushes_partial), and the reported speed is in [0, 1] (C131_beta_partial). The mass of every lepton of the program is 1, as these theorems assume.",
 "C132": "Proved for lines up to 199 characters and names up to 49. False beyond: a line that continues the value of a name of 50 characters or more is stored under the name cut to 49 characters.",
 "C133": "Proved for the Lorentz pusher and exact arithmetic. In the limit of small steps: C105 gives the chance for a given step. The rates are those of the tables read as curves of straight pieces.",
 "C134": "For every arithmetic in which zero equals itself. The starting lepton is the one the process builds from the track, wrong energy included (C83).",
 "C135": "Proved in exact arithmetic, and in double precision up to the closed end for ranges that start at zero. False in double precision: RandDouble(1, 2) returns 2 for the largest draw below 1.",
 "C136": "False of the code: an amount below 2^-54 of the depth is lost in the difference, so an electron in a weak field with a positive amount per step never radiates, however many steps (C136_refuted, C136_lost). Proved: while the depth is not negative it differs after n steps from the exact value by at most n*2^-53 of the first value (C136_error_partial), which bounds the moment of emission from both sides (C136_moment_partial).",
 "C137": "False of the code for two kinds of settings: the documented physics name classical is refused by beamOn (C137_name_refuted), and a sample fraction outside [0,1] is used by the program but ignored by the Python interface (C137_fraction_refuted). Proved for all other settings that both can express with one beam and a gaussian or focusing field, without tracking, histograms and an energy threshold: the same events with the same final states (C137_events_partial), and the program ends normally exactly when beamOn does (C137_program_partial). Missing: several beams, tracks and histograms, which Python cannot ask for, and the other fields.",
 "C138": "False of the code for polarisation angles that are not multiples of pi (C138_refuted, for every such angle): the magnetic field of the plane laser is then not that of a wave along its direction, and a positron gains light-front momentum at any time step. Proved for every plane wave (C138_wave) and for the plane laser with angles that are multiples of pi (C138_plane_partial), except for directions within 1e-5 of -z.",
 "C139": "False of the code at every speed below that of light (C139_refuted, for every charge across every magnetic field): the reaction force has the size of the radiated power, so the power it takes from the charge is the radiated power times the speed. Proved (C139_energy_partial): the energy follows the closed-form solution for the force of the code, whose momentum falls as p/(1 + kappa p t), up to a constant times dt^4; at the speed of light this is the classical loss.",
 "C140": "False with radiation reaction (C140_refuted, both reaction pushers): the code adds a force of fixed size against the momentum in the frame of the simulation, and in a constant electric field the computed momenta of two frames do not come together. Proved for the Lorentz pusher: tracks of two frames differ by no more than a constant times the time steps (C140_tracks_partial); the chance of no emission and of no conversion have the same limit in both frames (C140_emission_partial, C140_conversion_partial) while eta and chi stay inside the table. Missing: tracks with the reaction pushers, where it is false.",
 "C141": "Double precision with rounding, overflow and NaN (one zero, one NaN). All pushers, all processes including pairs, histograms, recorded tracks, aborts. C141_exchange_not_exact: exchanging two axes is not exact, a photon with momentum (3*2^24, 7/16, 7/16) has another energy when x and z are exchanged.",
 "C142": "Proved for the event loop in every arithmetic: tracking (C142_tracking, C142_tracking_abort, C142_tables, C142_setup), saving (C142_saving) and histograms with bins (C142_histograms, C142_histograms_partial) change nothing. False parts: a histogram without bins ends the program at the first particle of its species (C142_histograms_refuted); a histogram whose time has not come holds up those behind it in the file, so that they show another time (C142_others_refuted), while histograms in the order of their times and at least one step apart each show what they would show alone (C142_others_partial); adding a histogram to an input file on which the program ends normally makes it fail at the end, because its group is never created in the output file (C142_program_refuted).",
 "C143": "Proved for photons with any pusher in any field (C143_photon) and for leptons without field with the Lorentz pusher (C143_lepton) and, unless they are at rest or almost, with the pushers with radiation reaction (C143_reaction; leptons at rest are the subject of C151). C143_far, C143_tiny and C143_huge show that the error in proportion to the distance and the bounds on the momentum cannot be left out.",
 "C144": "C144_run holds for any field whose computed value is within kappa of the real one; C144_static and C144_plane supply that for constant fields and plane waves with the parameters of the field as given numbers. C144_true turns such a bound into one against the true solution of the equations of motion. The focused pulses and the pushers with radiation reaction are not covered. sin and cos are taken as correctly rounded.",
 "C145": "False of the code: the tables and the pushers do not agree. In a classical run the chi axis is entered with exp of a decimal logarithm (about 0.028 of the momentum is missing); proved: at most 98 percent is carried, for every field. In a semiclassical run the interpolated tables give more than the Gaunt formula takes at eta = 10^(-5+2/33); proved: at least 100.2 percent. The exact law and an if-and-only-if criterion hold for all tables. Partial because runs that leave the tables or fill the particle list are excluded.",
 "C146": "False of the code: the amplitude of a plane wave, the polarisation of a pulse, the energy distribution of a source and the quantity of a histogram are not written to the check file (C146_hidden_refuted for all files, C146_refuted for ten concrete ones), and numbers are shown in internal units. C146_iff_partial says that nothing else is missing. Values stand for what is printed of them; the program prints six digits, so the file tells less.",
 "C147": "False of a particle list of fixed size: C147_capacity_refuted shows that with every photon sampled the mean then goes to zero. C147_spectrum is the limit for a list that has room for a photon per step; C147_quantum_tables and C147_classical_tables show that the lookups of the code meet its hypotheses inside the tables. Smooth observables only: an observable that jumps, such as the count in a histogram bin, is not covered.",
 "C148": "C148_state: one first emission or none. C148_law: its exact law at any step size. C148_limit and C148_some: the limit of small steps. C148_tables: the lookups of the code meet the hypotheses inside the tables. The lepton must not come to rest on the path and the quantum parameter must stay inside the tables; later emissions are covered at fixed step size by C118, not in the limit.",
 "C149": "C149_state: one pair or none, and which. C149_law: the exact law at any step size. C149_limit and C149_some: the limit of small steps. C149_tables: the lookups of the code meet the hypotheses strictly inside the tables. The field is bounded and Lipschitz (static and plane fields are), and the quantum parameter stays inside the tables; photon emission by the pair afterwards is not part of the claim.",
 "C15": "False of the code: a push records the time before the step together with the position and momentum after it, so the recorded time lags by one step. Proved: exactly which time is recorded by pushes and recoils.",
 "C150": "False of the code: the result of the INI parser (ParseError) is never asked for, unknown names are never looked at, and GetReal, GetInteger and GetBoolean fall back to their defaults. C150_line_refuted, C150_name_refuted, C150_number_refuted, C150_count_refuted and C150_switch_refuted each show for all files that the program does the same with and without the mistake; no message is printed either (console output is not modelled). C150_depends_partial: what the program does depends on the file only through the names and sections it knows. Which missing parts are reported is C66.",
 "C151": "False of the code. C151_reaction_refuted: with either radiation-reaction pusher a lepton at rest is lost at the first push, in any field, also in none. C151_silent_refuted: with quantum emission a lepton that still rests after the first time step never emits in the whole event. C151_moving_partial: for momenta from 2^-400 to 2^200 the quantum parameter and the optical depth stay numbers.",
 "C152": "False of the code. C152_depth_refuted: with the shipped tables the pair process turns the optical depth of every photon without a field into NaN, and C152_never_refuted: such a photon never makes a pair again. C152_refuted: in a whole event a photon that is without a field after the first time step is only pushed. C152_gauss_refuted and C152_focusing_refuted: this is so for every photon 30 pulse lengths away from a Gaussian pulse, or where a focusing pulse is cut off. C152_inside_partial: in a field chi is a number and the optical depth stays one.",
 "C153": "Proved for the double-precision model. The lower bound 2^-400 on the momentum excludes leptons at rest, for which the direction is 0/0 (C151). Far from a Gaussian pulse the field is exactly zero unless it is NaN (C153_gauss), which is not covered here.",
 "C154": "The claim as a user would expect it (the mean is the sum of the rates) is refuted for every lepton that can emit in its first step; the exact law, the two-sided bounds and the bound on the particle list are proved.",
 "C155": "Refuted for quantum emission with pair production: within one time step of any length the particle loop visits the particles it has just appended, so a single electron can fill a list of any capacity. The bound is proved for each process on its own; with both, a second generation from one lepton has a probability of at most the product of the two rates per step.",
 "C156": "Proved for every source, field, list of processes and number of earlier events, with a fuel bound on the time steps of an event; K random numbers are enough for all. The next event is taken without histograms (C142 shows that they change nothing). The samples of the source are drawn before the events and are fixed here.",
 "C157": "Proved for primaries with equal samples (a source without spread); samples with spread are drawn beforehand and differ between events. The hypothesis that the two probabilities add up to 1 says that an event ends with probability 1.",
 "C159": "False of every crossing: PostStepDoIt proposes neither a position nor a time, so the track and its photons continue from where and when the track entered, although the simulation has moved them. Proved: they are misplaced by at most the way of light in the time of the crossing.",
 "C162": "False with the same random numbers in quantum simulations: a photon above the threshold uses one or two random numbers that a photon below it does not, so the next emission of the lepton differs. Proved: the probability law of position and momentum is the same; in classical and semiclassical simulations the leptons are the same.",
 "C164": "False in five ways: the announced number wraps at 2^32, the percentages are negative from 2^31 events on, above 100 for schedules that give thread 0 late events, restart with each source, and are shown as 100 from 99.5 on. Proved: the announced number is right exactly below 2^32 events, and within a source of fewer than 2^31 events under the block schedule the percentages are right for equally fast threads, lie in [0,100) and increase; in double precision they lie in [0,100) and never decrease; what is shown is off by at most half a per cent.",
 "C165": "False for times that are between one and two steps apart: C165_refuted gives a step of 0.1 and two times exactly one step apart, for which the second histogram is filled one step late in every event of five or more steps. Proved for times at least two steps apart. In exact arithmetic one step is enough (C41).",
 "C17": "Any scalar type in which -1 == -1 and 1 != -1 (a class of two facts, shown for R and for reals with NaN). Also: an unknown type ends the program.",
 "C18": "False of the code: GenerateList applies the matrix that turns the direction onto z to the vector z, so the transverse components of the direction are reversed; a source along x shoots along -x. Proved: the exact emitted direction for every configuration, and that it is the configured one exactly for directions along +z or -z.",
 "C19": "False for leptons: the constructor takes the energy as momentum magnitude, so the particle reports sqrt(1+E^2), larger than E for every sample. Proved: exact reported energy for all types; photons with E >= 0 are right.",
 "C20": "False of the code: the default branch samples uniformly between mean and sigma. With the default sigma 0 and any positive mean this violates the precondition of std::uniform_real_distribution. Proved: mono-energetic exactly when mean = sigma; otherwise values in [mean, sigma].",
 "C21": "False of the code: B is (sin, cos) of the polarisation angle instead of (-sin, cos). Proved: a wave exactly when the angle is a multiple of pi; E and B transverse and equally strong for every angle; directions within 1e-5 of -z excluded.",
 "C23": "False of the code: the field depends only on focus - start, the focus is always at the coordinate origin (proved for all parameters). Proved: with the focus at the origin the Gaussian pulse peaks there at the right time.",
 "C24": "First half proved. Second half false: the second polarisation assignment uses the overwritten x component; at angle pi/2 a field of 1/sqrt 2 becomes zero. Proved for multiples of pi, and that the longitudinal electric field does not depend on the angle.",
 "C25": "False within 1e-5 of -z (RotateToAxis treats these as -z). Proved for all other directions, -z included.",
 "C32": "False of the code when the photon has more energy than the lepton had momentum: the photon direction is read after the recoil (StochasticEmission.cpp:46-48), so it flies backwards. Proved: conserved whenever the photon energy is below the lepton momentum; violated for every stored photon above it.",
 "C33": "False of the code: the test is sampleFrac < rand, so with sample fraction 1 no draw in [0,1) ever stores a photon (proved for all draws).",
 "C34": "False for stochastic emission: the expected stored weight is (1-f)w/f, equal to w only for f = 1/2. Proved: continuous emission is unbiased for every f in (0,1].",
 "C35": "Real arithmetic, parent with non-zero momentum and minimum energy >= 0; that the parent is untouched and at most one photon is added is proved for every scalar type.",
 "C36": "False for a list with one free slot (the electron is dropped while the photon dies) and for splits that leave a lepton less than its rest energy (square root of a negative number: NaN momentum). Proved: everything as stated when two slots are free and both shares reach the rest energy.",
 "C37": "False of the code: in zero field chi=0, log10 gives -inf and a table that starts flat, as the shipped pairprod table does (C37_shipped_refuted), gives -inf*0 = NaN; the optical depth stays NaN and the photon never converts in any later field (proved for every event). Proved: tables that rise at the start leave the photon unchanged.",
 "C38": "False below the first eta of the table (C38_refuted). Proved for eta not below it, for rows with ties and rows that do not start at 0, as in the shipped table; C38_loaded_partial proves it for every square table loaded from files.",
 "C39": "For every scalar type, including NaN. Whole events: without histograms.",
 "C42": "False of the code: the particle loop reaches particles created in the same step and pushes them once more. Proved: particles present at the start keep the simulation time while alive; every secondary is ahead by a whole number (at least one) of steps.",
 "C46": "Proved for type energy; refuted for x, y, z, px, py and pz (C46_refuted): the test `m_type == \"Energy\" || \"energy\"` is always true, so every histogram bins the energy (C46_type_ignored).",
 "C47": "Proved for weight one; refuted for every other weight (C47_refuted): bins are incremented by one and the weight is never read.",
 "C48": "Ratios are preserved in full. The sum is one provided the entry counter, left uninitialised by the constructor, does not wrap to zero; C48_refuted is the wrapping case. C48_empty_is_nan: with nothing inside the range all bins become NaN.",
 "C50": "Refuted for every range and particle sequence (C50_refuted): the only bin centre is NaN, so nothing is ever counted.",
 "C51": "The arrays handed to the file are right for every order of the store calls (below 2^29 rows of a species); with 2^29 rows or more the copy writes out of bounds, and the file itself never receives the tables (C54).",
 "C52": "False: dead photons stay in the list and in tables and histograms. Exact condition proved for the table; concrete event refutes it for both.",
 "C53": "False: no history of calls that returns normally leaves anything in the file; even with all groups present a second source always collides with the first on the name of the table.",
 "C54": "False for every file and every name; exact behaviour proved. Assumes H5Gget_objinfo returns 0 for an existing object and a negative number otherwise.",
 "C55": "Proved for all rank counts, sources and schedules, with and without buffering by the MPI library, with the file abstracted: every execution is finite, never deadlocks, and the gathered tables are in rank order (C55_partial). False of the code as a whole: writing to a new file always throws (C55_refuted, see C54), and 2^28 or more rows make the int array size negative (C55_many_rows_refuted).",
 "C56": "Proved for all rank counts, histogram counts, arrival orders: bin-wise sum over all ranks in exact arithmetic (C56_partial); in any arithmetic the sum in some order of the ranks (C56_order_partial). False of the code as a whole: writing a histogram always throws (C56_refuted, see C54).",
 "C57": "False of the code: the sample counter is a plain shared integer. Proved: a single-threaded (or serialised) execution gives each sample once; any execution stays in range and completes; the program has a data race exactly when two threads still have events to start; two threads can get the same sample, and a particle can mix components of two samples (witness schedules).",
 "C58": "Proved up to 2^32 grid points; false above, where the 32-bit index wraps.",
 "C59": "Well-formed includes the limits of the format: lines of at most 198 characters and section names of at most 49; C59_long_section shows what happens to longer section names.",
 "C60": "Proved for files whose lines have at most 199 characters. False for longer comments (C60_refuted): the rest of the line is read as a new line.",
 "C61": "Values are found in any case; section detection is case-sensitive, so a file with [general] is rejected although its values are found (C61_refuted).",
 "C62": "Proved for files whose lines have at most 198 characters and that do not start with a byte order mark. False for longer lines (C62_refuted).",
 "C63": "Proved for lines of at most 199 characters. False for longer ones (C63_refuted): the value is cut.",
 "C64": "Proved for the form with spaces after the commas. False for [a,b,c] without spaces (C64_refuted, read as one number), for capital exponents (C64_upper_refuted, 1E3 is read as 13) and for the default (C64_default_ignored).",
 "C66": "Exact characterisation for every reader state, a list of defects for written configurations, and the whole way from the command line to the set-up. Sources with unknown type are the subject of the source properties.",
 "C67": "Holds for sections that have at least one entry. An empty section is not recorded, which also hides all sections with higher numbers (C67_refuted). The section counter is not taken modulo 2^32.",
 "C68": "For every input; also from the text of the file.",
 "C69": "When a run starts is characterised exactly. An argument of fewer than four characters other than -h ends in an uncaught std::out_of_range instead of an error code (C69_refuted).",
 "C70": "False of the code: a beamOn that is turned down after an earlier one that ran leaves dangling pointers. Proved: destruction (and any further beamOn) is a double free exactly for histories in which a started run is followed by one turned down for an incomplete configuration.",
 "C71": "False of the code: the documented name \"classical\" is rejected and the misspelling \"clasical\" is accepted and runs the quantum model. Proved for all other strings: accepted exactly if documented, and every event of a run is an execution of the named model's equation of motion and emission process.",
 "C72": "False of the code for the end time, which is never checked (an end time of zero runs and replaces the results). Proved: beamOn goes ahead exactly when field, physics, beam and a non-zero time step are in place and the thread count is allowed; a call that does not run changes neither results nor settings.",
 "C73": "Proved for every number of threads and distribution of events: one row per particle, complete rows. The row counts of the getters are 32-bit, so the shape theorem assumes fewer than 2^31 particles of a species; a negative number of events is refuted (beamOn(-1, 1) runs 2^32-1 events and reports -1 rows).",
 "C74": "Proved over the reals: round trips of every reference value, relations between them, velocity and Lorentz force in reference units equal the SI ones, and API-level round trips of position and energy through setGenerator and getInput. Rounding is not covered.",
 "C75": "Proved for the reals and for extended reals with infinities and NaN.",
 "C76": "Proved for every source with fewer than 2^32 primaries (the type of the counter) and every number of calls.",
 "C77": "False: no history exists after which the process can be destroyed without undefined behaviour; after a field was set and a PostStepDoIt was made it is a double free. Proved: exactly which histories get as far as the destructor, and that each internal particle is freed once before it.",
 "C78": "False for the Gaussian and focusing lasers: their phase does not contain the time, so at a fixed point the field never changes sign (proved for all parameters). Proved for the plane laser.",
 "C79": "Vectors in the form of three numbers separated by single spaces (other forms: C64, C65). Histogram limits are read in internal units, see HistogramIs.",
 "C80": "False: output of a histogram throws in every state; output of tracks returns only if there are none.",
 "C81": "False of the code: the processes are never deleted. Proved: the number of objects left after destruction is exactly the number of processes created.",
 "C82": "False: consumed photons are fired too, and the energy given is the total energy. Proved: the exact condition under which the claim holds; species and direction are always right.",
 "C83": "False for every lepton: the kinetic energy is used as the momentum and the total energy is proposed as kinetic energy, so it comes out as sqrt(m^2+T^2). Proved: direction kept, no secondaries, the loop ends.",
 "C84": "False: the process acts on every other step inside the field, and the switch is shared between tracks. Proved: the exact condition on the numbers of steps.",
 "C85": "False: the photon sample is never used; all photons of a crossing are copies made from the electron sample, with the square of the momentum as energy; a photon model with fewer components than the electron model is read out of range. Proved: the number of photons and safety when the models have as many components.",
 "C86": "Complete files are described by Spec/TableFiles (numerals with any white space between). C86_emission_safe and C86_pairs_safe connect the loaded tables with C39's GoodTables.",
 "C87": "C87_eta and C87_row give the axes. The property is false: the chi spacing divides by the number of rows, so it holds for a row exactly if there are as many columns as rows (C87_span_iff_partial); C87_refuted is a 2 by 3 table.",
 "C88": "False: an unset variable makes a string from a null pointer (C88_unset_refuted), a short pair table is filled up with its last pair (C88_short_refuted) and missing entries of the energy table stay unwritten (C88_unwritten_refuted). Proved: the program exits exactly when a file is missing.",
 "C89": "For every table size, loading makes and unloading frees the same arrays.",
 "C90": "False of negative counts (C90_negative_refuted), numerals with a leading zero (octal, C90_leading_zero_refuted) and numerals with an exponent (C90_exponent_refuted). Plain decimal numerals below 2^32 are taken at their value (C90_plain_partial).",
 "C91": "C91_loop, C91_source, C91_gaussian_energy and C91_histogram, over the reals. Other energy distributions are treated in C20.",
 "C92": "About the code after AddGroup, for a file that has the group; by C54/C80 the code as a whole never gets there. C92_gamma_refuted: Lorentz factors of tracks are multiplied by the time unit. Grids above 2^32 points are excluded (C58_refuted).",
 "C93": "False of every input that asks for output: no such run ends normally, because AddGroup never makes a group (C54). C93_normal_end_partial: a run that ends normally had nothing to save and leaves an empty file.",
 "C94": "Exact condition (C94_undefined_iff_partial): with tables of consistent sizes there is undefined behaviour if and only if a source that is not Gaussian has a spread below its mean energy (std::uniform_real_distribution with the limits the wrong way round). C94_refuted: a file that gives a source's mean energy and neither distribution nor spread is enough. Single-threaded build without MPI; the threads are in C57.",
 "C95": "False for time steps that are zero or negative, which no check rejects: a photon is then followed forever (C95_refuted). Proved for positive time steps or a non-positive end time in exact arithmetic (C95_ends_partial); C95_photons_partial gives a class of runs that end normally.",
 "C96": "In IEEE doubles the number of steps is exact when the clock needs no rounding (C96_exact_partial); with rounding, up to 2^26 steps, it is right up to one step and the clock is off by at most n^2 units in the last place of the step, less than half a step (C96_near_partial); every event ends if the end time is at most 2^51 steps (C96_ends_partial, C96_program_partial for the whole program). False in general: with a step of 0.1 and an end time of 1 there are 11 steps instead of 10 (C96_extra_step_refuted), and with a step of 1 and an end time of 2^54 the clock sticks at 2^53 and no event ever runs to its end (C96_stuck_refuted).",
 "C97": "Counts are exact up to 2^53 particles per bin, more than an event can hold (C97_counts, C97_exact), the bin is the nearest one by rounded distance (C97_nearest) and unique (C97_one_bin), and sums over ranks are exact whatever the schedule (C97_ranks). Beyond 2^53 counts are lost (C97_refuted). Ranges of magnitude above 2^900 are not covered.",
 "C98": "About the seven files in Tables, as they are at the pinned commit (Verif/Data, compared with the files byte by byte by tools/tables-check.sh). C98_program is C94 for them.",
 "C99": "C99_negative_refuted: for every chi between about 108.7 and 884 (log10 chi in (2.036, 2.946]) a draw of at most 0.0006 gives the positron a negative share, because the draw lies below the first entry of the row and Interpolate1D continues the first segment. C99_energy_refuted: photons of at least 20000 electron masses then convert into leptons with more energy than the photon had. C99_exit_refuted: above about 884 the program ends with code -1. C99_share_partial: for log10 chi in [-2.301, 1.9826) all shares lie in (0, 1.0000000000000007]. Missing: chi below the table, and chi between 96.1 and 108.7, where the two neighbouring rows differ."
}