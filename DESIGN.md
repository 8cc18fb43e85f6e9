# Design: a Lean 4 model of QED-Cascade

The C++ sources are in `/repo/Source`. They were read as text and never built
or run. Everything here is about a model written by hand from that text.

## 1. How the code is modelled

* **`double`.** The model is generic over a class `Dbl D`
  (`Verif/Base/Dbl.lean`): the operations the C++ code uses on `double`, with
  no laws. Every numeric function is written once over `Dbl D`.
  * Theorems stated for every `Dbl D` use no arithmetic law, so they also hold
    for IEEE doubles (NaN, rounding and all). Bookkeeping properties are
    stated this way wherever possible.
  * Theorems about numbers are stated for the instance `ℝ` (exact
    arithmetic, no rounding). Divisions by zero and square roots of negative
    numbers are kept out by explicit hypotheses.
  * The instance `XR` (reals, `+inf`, `-inf`, `NaN`; no rounding, no overflow,
    one zero) is used where the exceptional values are the point.
  * The instance `F64` (`Verif/Base/F64.lean`) are the IEEE doubles: `XR` with
    every result rounded to the nearest double, ties to even, with subnormal
    numbers and overflow to infinity; one zero, one NaN. `+ - * / sqrt` and
    literals are as IEEE 754 has them, apart from the sign of zero; `exp`,
    `log`, `sin` and so on are rounded correctly, which the C library does not
    promise, so no theorem about `F64` uses them.
* **Undefined behaviour, exits, exceptions.** `Verif/Base/Res.lean`:
  `Res α = ok a | exit code | throw what | ub what`. Out-of-bounds reads, null
  or dangling pointers, violated library preconditions are `ub`.
* **Loops** become folds or structural recursion; the one loop that may not
  end (`while (time < timeEnd)`) is a step function, an inductive relation and
  a fuel version proved equal on terminating runs.
* **Random numbers** are explicit inputs: a stream of uniform draws in `[0,1)`.
  A theorem "for all draws" quantifies over the stream.
* **Objects and pointers.** A function that mutates an object returns the new
  value. Where ownership is the property (RunManager, Geant4 process), the
  heap state of each pointer (null, live, freed) is modelled.
* **Libraries** (HDF5, MPI, OpenMP scheduling, Geant4 kernel, C runtime) are
  small state machines or parameters; the assumed contract is written beside
  the definition and listed in section 4.

Layout: `Verif/Base` (scalars, outcomes), `Verif/Model` (the code, every
definition cites file and lines), `Verif/Spec` (small independent
specifications), `Verif/Lemmas` (helpers), `Verif/Props` (property theorems
and the examples that show their hypotheses can be met).

If the code violates a property, the property's full statement is refuted by
a theorem whose name contains `refuted` (a concrete witness or a universal
negation), and what does hold is proved as a theorem with the suffix
`_partial`.

## 2. Plan per property

| id | modelled | proof |
|----|----------|-------|
| C01 | ThreeVector Cross/Dot/Mag/Norm | ring identities over ℝ; XR for the zero vector |
| C02 | ThreeMatrix product, Determinant, Inverse | ring / field_simp over ℝ |
| C03 | RotateToAxis, both branches | algebra over ℝ; refuted for axis y antiparallel; partial: main branch, and axis z |
| C04 | Direction | refuted; partial: difference vector |
| C05 | Interpolate1D on lists | induction on the scan, ℝ |
| C06 | same | refuted at the last point and above it; partial: lower end |
| C07 | ArrayIndex | induction on the scan, ℝ |
| C08 | ClosestPoints, int/unsigned comparison included | refuted on the last interval; partial elsewhere |
| C09 | SimpsonsRule loops | induction on the panel count; refuted for even sizes |
| C10 | RandDiscrete | refuted: index 0 never returned; partial: later indices |
| C11 | generator state and SetSeed | refuted for all states |
| C12 | Lepton/Photon getters | algebra over ℝ |
| C13 | ParticleList | refinement to `List.take` |
| C14 | UpdateTrack and every caller | invariant over event histories |
| C15 | PushParticle | refuted; partial: recorded time is one step early |
| C16 | optical depth in both processes | induction over steps |
| C17 | GenerateList state machine | induction on calls |
| C18 | rotation use in GenerateList | refuted; partial for directions along z; exact characterisation |
| C19 | Lepton energy constructor | refuted for leptons; partial for photons |
| C20 | energy sampling branch | refuted; partial: sigma-dependent range |
| C21 | Plane and Gaussian GetField | refuted; partial for angle 0 |
| C22 | all fields | trig and exp bounds over ℝ |
| C23 | Gaussian and Focusing GetField | refuted: depends only on focus - start |
| C24 | Focusing GetField | zero region proved; magnitude refuted |
| C25 | Plane GetField | algebra over ℝ |
| C26-C28 | PushParticle (RK4) | algebra, norm inequalities, induction on steps |
| C29 | Landau pushers | inner product sign, log/rpow bounds |
| C30 | push and processes | case analysis, induction on steps, any `Dbl` |
| C31 | pushers | algebra over ℝ |
| C32 | StochasticEmission::Interact | partial when the photon takes less than the momentum; refuted beyond |
| C33 | same | refuted for every draw |
| C34 | sampling decision | Lebesgue measure; continuous proved, stochastic refuted |
| C35 | ContinuousEmission::Interact | any `Dbl` |
| C36 | NonLinearBreitWheeler::Interact | algebra, capacity hypothesis; refuted at capacity |
| C37 | same over XR with Interpolate1D | refuted: depth becomes NaN and stays NaN |
| C38 | CalculateChi and table axes | bounds on interpolation |
| C39 | all lookups with bounds-checked reads | no `ub` outcome |
| C40 | main time loop | Nat.ceil; divergence for dt <= 0 |
| C41 | histogram trigger logic | invariant on histCount |
| C42 | step function | refuted; partial: primaries, and offset per generation |
| C43, C44 | whole step function | invariants over all histories |
| C45-C50 | Histogram class | induction on particle sequences; XR for one bin |
| C51-C54 | OutputManager, HDF5Output | list lemmas; file as a finite map |
| C55, C56 | MPI protocol as a transition system | invariants over all schedules |
| C57 | threads with split read and write of the counter | refuted; partial: sequential and atomic |
| C58 | index arithmetic | bijection |
| C59-C65 | ini.cpp and INIReader on character lists | induction on lines and digits |
| C66-C69 | FileParser, UnitsSystem, main selection logic | case analysis |
| C70-C75 | RunManager state machine | invariants over call sequences |
| C76, C77 | Geant4 adaptor state machines | induction on calls; C77 refuted |
| C78 | time dependence of the laser fields | refuted for Gaussian and focusing lasers; proved for the plane laser |
| C79 | FileParser from file text to parameters | round trip through the ini parser |
| C80 | OutputHist, OutputEvents over the file model | refuted; exact condition for returning |
| C81 | RunManager heap | exact count of leaked objects |
| C82 | G4CascadeGenerator shots | refuted by a converting photon; exact condition |
| C83 | G4StochasticEmission loop | invariant of the time loop without field; refuted for every lepton |
| C84 | GetMeanFreePath switch | exact condition on the numbers of steps |
| C85 | G4CascadeTF sampling | non-interference of the photon model |
| C86 | ifstream extraction, LoadTables of both processes | induction over files that list numerals; size conditions of C39 |
| C87 | eta and chi axes of LoadTables over the reals | closed forms; exact condition; counterexample |
| C88 | LoadTables with missing and short files | exact exit condition; counterexamples |
| C89 | array making and freeing as a sequence of requests | induction over the requests |
| C90 | `strtol` with base detection, conversion to `unsigned` and the reading of counts | evaluation of `strtol` on decimal, negative, zero-led and exponent numerals; refuted for the last three |
| C91 | the construction of fields, sources and histograms in `main` | unfolding the constructors; events of a source from C17 |
| C92 | the code after `AddGroup` of each output function, split off as functions of a file that has the group | explicit contents of the file afterwards; induction over calls for the tracks |
| C93-C95 | `main` as one function of command line, files, tables and random numbers, with fuel for the time loop | invariants of events, sources and output over the whole run; C93 refuted for every input that asks for output, C94 exact condition, C95 refuted for time steps that are not positive |
| C96-C97 | the time loop and the histograms over IEEE doubles (`F64`) | exactness and progress of rounded additions; their error, summed over up to `2^26` steps, for `C96_near_partial`; monotonicity of rounding; the clock for steps of 0.1 computed step by step |
| C98 | the table files, number by number (`Verif/Data`), and the loading of C86 | every number checked by the kernel; C86 and C94 for these files |
| C99 | the energy split of C36 with these tables | every row checked by the kernel; C05 and C08 for the rest; refuted for chi above 108.7, exact range for smaller chi |
| C100 | the photon energy of C38 with these tables | every row checked by the kernel; below the table the column of a draw in two rows is compared |
| C101 | the sampling of both processes with tables of cumulative distributions | the set of draws below a value is an interval, its Lebesgue measure the tabulated probability; also for the shipped tables; refuted at the last tabulated value |
| C102 | eta and chi against the field tensor of special relativity (`Spec/Invariant`) | algebra; invariance for every matrix that keeps the metric; refuted for a particle at rest (NaN) |
| C103 | the push against the textbook Runge-Kutta method (`Spec/RungeKutta`) for the equations of motion (`Spec/Motion`) | unfolding on both sides; Simpson's rule and integrals of cubics |
| C104 | `n` pushes against a solution of the equations of motion | stability and consistency of the method by Lipschitz estimates; existence by Picard-Lindelöf; static and plane fields shown to be Lipschitz |
| C105 | time steps of an event with one particle; Lebesgue measure of the raw draws for which no further draw is used | first passage of the accumulated increments; draws never go back; measure of an interval |
| C106 | micro-steps of `AppParticle` on a shared histogram, arbitrary schedules | invariants over the moves: value plus outstanding writes is bounded by the true count; witness schedule with a lost update |
| C107 | read and write-back of the generator's state as two steps, arbitrary schedules | invariants over the steps; lockstep schedule |
| C108 | rotations, reflections, displacements and clock shifts acting on fields, particles, lists and event states (`Spec/Motions`) | every function of the event loop commutes with the action; induction over the loops; orthogonal matrices give such actions |
| C109 | exchange of species and sign of the fields (`Spec/Conjugation`), in every arithmetic with exact signs (`Spec/Signs`) | as C108 for pushers and radiation; a conversion with unequal shares as counterexample for pairs |
| C110 | the event loop with another end time (`Model/Sim`) | steps do not read the end time; composition of runs; prefixes of the recorded tracks by induction over effects |
| C111 | the event loop on tagged lists (`Spec/Families`) | a visit reads one particle and some draws; simulation of the whole by its families and back, by induction over the loops; a full list as counterexample |
| C112 | pusher against potentials (`Spec/Work`) | total energy is constant along exact solutions; with C104 the computed energy is off by at most a constant times the step; one large step in a magnetic field as counterexample to exactness |
| C113 | `RandNormNd` over ℝ, the decompositions as relations | characteristic functions: `mean + L z` is normal with covariance `L Lᵀ`; spectral theorem for totality |
| C114 | `RandSinhArcsinhNd` | the law as a product of images of normal laws; increasing images of a normal law agree only if the functions do |
| C115 | `LoadGraphs`, `runGraph`, `PostStepDoIt` of the surrogate; files as texts and functions | reading lemmas of C86 and case analysis |
| C116 | pointers of the surrogate process | invariant over histories |
| C117 | sampling of the surrogate | calculation |
| C118 | time steps of an event with one lepton and stochastic emission; means over independent uniform draws as iterated integrals (equal to the product measure for measurable sets, C118_measure) | the event follows an abstract process with a depth (bisimulation); the exponential law forgets (change of variables); induction on the steps |
| C119 | the three setters as functions from SI parameters to a field; what an SI observer measures (Spec/SIField.lean) | rescaling of the wave phase; static fields and the positions of the Gaussian pulse are not converted (refuted, with exact factors) |
| C120 | divergence, curl and time derivative of the modelled fields (Spec/Maxwell.lean, Mathlib derivatives) | chain rule for plane waves, giving an equivalence; Gaussian and focusing pulses are refuted at a point where the magnetic field is always zero but the electric field has a curl |
| C121 | `n` pushes against a solution of the equations of motion, in fields with four continuous derivatives | Taylor expansion of the solution and of the four slopes gives a local error of fifth order; stability gives the global order; a smooth cut-off removes the need for global bounds; static and plane fields are smooth everywhere, the pulses off a plane in their focus, in which the code divides by zero. There the pushes are followed in arithmetic with infinities (`XR`), in which the code computes the values of smooth fields: the Gaussian pulse qualifies everywhere, the focused pulse off its cut-off. At the cut-off the order is refuted with an electron at rest that the pulse reaches |
| C122 | The text of `example/example.ini` (`Data/Example.lean`, generated), the values it stands for (`Spec/Example.lean`) and the program run on it | The kernel evaluates the parser on the text; the rest follows from the general theorems on set-up, sources, fields and histograms. False in the end: the results are never saved |
| C123 | `beamOn` after any history of calls (`Model/RunManager.lean`): every way it can end, be undefined or not end | The event loop is followed by induction over the events (`Lemmas/RunEnds.lean`); an exact condition for undefined behaviour; termination for positive time steps. False of negative steps and of unknown particle names |
| C124 | The calls of `example/QEDCascPy_example.py` on a new run manager (`Spec/PythonExample.lean`): what is set up, how the call ends, and the four arrays | An event with one lepton and the continuous emission is followed step by step (`Lemmas/ContinuousEvent.lean`); the lookups succeed exactly up to the last but one entry of the table (`Lemmas/Covered.lean`); the electron's path is independent of the random numbers after its start. False without OpenMP, where nothing is run; the threads race; with the shipped tables the values along the paths are bounded by C126 |
| C125 | An event with one lepton and continuous emission, over independent uniform draws (`Spec/Spectrum.lean`) | The draws of an event are independent choices, one per step (`Lemmas/Spectrum.lean`): induction over the steps and the draws gives the complete law of the list of photons, from it the means and the binomial number of photons. False of events with more steps than the list has room for: what is radiated after the list is full is lost |
| C126 | The three pushers in a field of bounded strength (`Spec/Gain.lean`) | The Lorentz force is at most the charge times the strength of the fields; the four stages of a step of the Runge-Kutta method stay in a ball around the momentum, in which the reaction points against the momentum to first order, so its mean over the stages shortens the momentum (`Lemmas/Gain.lean`); induction over the steps. False of radiation reaction with too long a time step, which turns a lepton around |
| C127 | Emission, conversion, the Lorentz pusher and the time loop; the energy of all particles (`Spec/Budget.lean`) | The excess of an emission is the change of `1 / (E + p)`, at most the root of two (`Lemmas/Budget.lean`); induction over everything a time step does, with the momentum bound of C126 for the pushes. Both balances are false of every single process: emission keeps the momentum and gains energy, conversion keeps the energy and loses momentum |
| C128 | `main` with MPI: what each rank simulates and keeps (`Model/ProgramMpi.lean`), followed by the MPI output (`Model/OutputMpi.lean`) | A rank's stored data is what the specification `simRun` gives for its random numbers, by induction over events and sources; then C55/C56 for all schedules. Counting rows refutes the sharing of work |
| C129 | Gaussian field, unit conversion in the parser and the run manager; textbook pulse in SI units (`Spec/Pulse.lean`) | Scaling of every length, time and field in the formula of the code; histories of calls by induction, files through C79. Refuted for every focus away from the origin |
| C130 | Source generator as a random variable: raw normal and uniform draws mapped to particles; law of a bunch in `Spec/Bunch.lean` | The joint law of places, angles, azimuths and energies of all particles is computed (affine images of Gaussian and uniform laws, products); the mean momentum determines the axis, which gives the exact set of directions for which the bunch is the one asked for |
| C131 | the pushers over IEEE doubles (`F64`) | finite results have finite operands; relative error of each rounding followed through the Lorentz factor, the velocity, the weighted sum of slopes and the new position; a free electron computed bit by bit moves faster than light |
| C132 | `ValueHandler` and the parser; what lines say, in `Spec/IniValues.lean` | the fold over the handler's calls is computed for one key: filter the calls, join their values; keys of different names differ; a witness with a name of 50 characters loses its continued line |
| C133 | the rates as functions of place and momentum, in `Spec/Rates.lean`; the processes and the step loop as in C104 and C105 | C105 gives the chance of no event as the exponential of minus the sum of the clock's steps; C104 puts the computed path within a constant times the step of the true one; the rate is continuous near the true path, which is compact, so the sum goes to the integral; `interpolate` is the curve of straight pieces (Lemmas/Rates); the shipped tables are checked to be increasing by the kernel |
| C134 | the loop of `G4StochasticEmission::PostStepDoIt` beside the program's time loop | a simulation relation: same lepton, generator and time, photons with the same momenta but pushed one step less; emission does not look at the list; massless particles are inert; both directions by induction over the loop |
| C135 | `RandDouble`, `SampleUniform` with a raw draw | affine map of the unit interval; a preimage of an interval is an interval; in doubles `1 + (1 - 2^-53)` rounds to 2 |
| C136 | `UpdateOpticalDepth`, `StochasticEmission::Interact` over IEEE doubles (`F64`) | differences of doubles have a relative error, also when small, and the right sign; induction over the steps; an amount below a quarter of the spacing is lost, computed for an electron in a weak field |
| C137 | both set-ups: `RunManager` calls and `beamOn`, `FileParser` and `main` | an independent description of a run (`RunOrder`) with what it means to write it in a file and to ask for it by calls; both reduce to the same simulation. Refuted for the physics name `classical`, refused from Python, and for sample fractions outside [0,1], used by the program and ignored by Python. Restricted to one beam, gaussian and focusing fields, no tracking, no histograms and no energy threshold |
| C138 | `PlaneEMField::GetField`, `LorentzPusher`, `PushParticle` over `ℝ` | both quantities are constant along solutions of the equations of motion (differentiation, fundamental theorem of calculus); C121 carries them over to the computed tracks. For polarisation angles that are not multiples of π the first changes at a non-zero rate, and the computed tracks converge to that |
| C139 | `LandauPusher`, `PushParticle`, `StaticEMField` over `ℝ` | the equations of motion with the code's reaction force are solved in closed form (the momentum turns by an angle that is an integral and shrinks as `1/(1 + κ p t)`); C121 carries the solution over to the computed tracks. The code's force has the size of the radiated power, so that the power it takes is smaller by the speed: refuted for every charge across every field by comparing derivatives at the start |
| C140 | `LorentzPusher`, `LandauPusher`, `ModifiedLandauPusher`, `PushParticle`, `StochasticEmission`, `NonLinearBreitWheeler` over `ℝ` | the Lorentz transform of a motion, with its clock, solves the equations of the other frame, so that by uniqueness it is the motion there; C104 carries this over to the computed tracks. For the chances, the limits of C133 are integrals that a change of variable by the clock carries over, since eta and chi are invariant and the rate is a scalar over the energy. The reaction pushers are refuted by an electron in an electric field that goes forward in one frame and backward in the other |
| C141 | the event loop over IEEE doubles (`Base/F64`), mirrors (`Spec/Mirror`) | changing a sign is exact in every operation (`Spec/Signs`, `Lemmas/Signs`), so that every vector operation commutes with the mirrors, and with it, by the induction of C108, pushers, processes and loops. The plane follows because an event has one outcome. A photon with three unequal components shows that exchanging axes is not exact |
| C142 | the event loop, sources and stored tables in any arithmetic, with the records removed (`Spec/Watching`) | removing the recorded tracks commutes with pushers, processes, loops and the storing of tables; histograms are read by nothing but themselves. Negations: a histogram without bins ends the program, a histogram waiting for its time delays those behind it (those in order and a step apart show what they would alone, `C142_others_partial`), and any histogram makes a program that ends normally fail when it is written |
| C143 | the pushers over IEEE doubles (`Base/F64`), repeated steps (`Spec/Flight`) | relative errors of the length, the Lorentz factor, the velocity and the Runge-Kutta sum; the force without field, with and without radiation reaction, is exactly zero; induction over the steps. The limits are shown by photons that never move or are sent to infinity |
| C144 | the Lorentz pusher, the constant field and the plane wave over IEEE doubles beside the same definitions over the reals (`Spec/Rounding`) | forward error analysis of every operation of a Runge-Kutta step, with explicit constants; the real step is Lipschitz in time, place and momentum; discrete Gronwall lemma over the steps; with C104 a bound against the true trajectory (`C144_true`) |
| C145 | continuous emission, the Landau pushers and the shipped tables; `reactionLoss` and `meanRadiated` (`Spec/Balance`) | C125 with the length of the momentum as weight gives the exact law; induction over the steps gives the criterion; the mean of the tabulated parameter is bounded above by chords and below by tangents of the exponential, row by row of the shipped tables (`Lemmas/RowMean`, `ShippedMean`), evaluated by the kernel |
| C146 | the log of the parser as a list of lines with labels and values (`Model/CheckFile`); what is shown (`Spec/CheckFile`) | the log is cut into its sections and compared line by line, by induction over sources and histograms; files that agree on all shown entries are parsed alike; ten concrete files as witness |
| C147 | the runs of C125 with `n + 1` steps over a fixed time; the rate of an observable along a path and tables that are continuous in the quantum parameter (`Spec/SpectrumLimit`) | the mean of C125 is a Riemann sum along the fourth-order path of C121, dominated convergence for the mean over the spectrum; the code's tables are piecewise linear and so continuous; with a fixed list the sum has a fixed number of terms that go to zero |
| C148 | the event of C118 up to the first step that uses random numbers (`FirstEmission`, `NoEmission` in `Spec/FirstEmission`); the rate along a path | induction over the steps with the depth that is left, whose law is again exponential; in the limit the sums up to each step are uniformly near the integrals (`sums_to_integral`), and the path and the spectrum are those of C121 and C147 |
| C149 | the event of a photon alone with pair production (`NoPair`, `FirstPair`, `positronOf`, `electronOf` in `Spec/FirstPair`); the rate of C133 along its path | induction over the steps with the depth that is left; the pair is pushed once in the step that makes it, so its momenta are off by a multiple of the step (`push_near`); with uniform continuity on a compact set the mean over the share converges, then as in C148 |
| C150 | the whole program on two settings files; `Spec/Settings` lists the names each section knows, with sort and default | every getter of the parser is shown to depend only on the value of a known name up to `Same` (`parse_same`); then C62, C59 and C61 give the values of files that differ in one line or entry |
| C151 | the pushers, emission and events in double precision (`F64`); `Spec/Rest` says what at rest and lost mean | the square of a tiny momentum underflows, so its direction is 0/0; NaN passes through every operation of the push, and every comparison with it is false, so the optical depth test never fires (invariant `Muted` of the time loop). For moving leptons an interval argument (`Fits`, `AtLeastOne`) bounds every intermediate result |
| C152 | pair production, the laser fields and events in double precision (`F64`), with the shipped tables as loaded from their text; `Spec/Outside` says what no field, 30 pulse lengths away and cut off mean | where every component of the field is 0 or NaN, so is chi (closure of `Void` under the operations); the logarithm of 0 is minus infinity and lies below the table, whose first two entries are equal, so the extrapolation is 0 times infinity; NaN never passes the test of the optical depth (invariant `MutedPhoton` of the time loop). exp(-800) is below the smallest `double`. The witness runs a photon into a pulse in two steps of exact arithmetic |
| C153 | the emission processes, the focusing field and events in double precision (`F64`); `Spec/Quiet` says what no field and a travelling lepton mean | with zero fields eta is exactly 0 although the direction is rounded; eta 0 takes the value for small eta instead of the table, and the depth lost is 0 times something finite, so the depth is subtracted 0. In continuous emission the energy of the photon is 0/0, NaN, which does not pass the test of the smallest energy. Events by induction over the particles and the time steps. `C153_gauss`: far from a Gaussian pulse the exponential underflows to 0, and the field, if a number, is 0. The witness is an electron that moves before the field is switched on |
| C154 | Over the reals, on top of the law of the record of a lepton's emissions (C118). `Spec/Tally` sums a quantity over the emissions of a record and over its steps, and takes the mean over the draws. | `C154_law`: by induction on the steps, the mean over emissions is the mean over steps of `1 - exp (-rate)` times the mean over the spectrum. `C154_refuted`, `C154_number_refuted`: strictly less than the rate says, for every lepton that can emit. `C154_partial`, `C154_number`: the bias is at most half the expected number per step. `C154_list_refuted`: `n` steps add at most `n` photons per lepton, by induction on the list. |
| C155 | Over the reals, on the event loop. `Spec/Generations` names the settings with quantum emission and pair production (`QuantumPairs`) and draws within bounds (`Between`). | `C155_partial`: with one process a step adds at most one particle per lepton or two per photon, by induction over the particle loop. `C155_refuted`: for every time step a magnetic field and tables with which every lepton emits and every photon makes a pair, so one step fills the list and a clock shows `log₂ mx` steps; by induction over the loop with the invariant that all particles not yet visited are of this sort. `C155_likelihood_refuted`: with probability as close to 1 as desired. `C155_rare_partial`: conversely, a single lepton makes a second generation within a step with a probability of at most the product of the two rates per step, so of second order in the time step; a second generation needs two small optical depths, and their probabilities multiply. |
| C156 | Model/Program (`runEvents`), Model/Sim and Model/Source over ℝ with a stream of independent uniform draws; `Spec/Independence` names the next event of a source (`nextEvent`) and a generator nobody has used (`fresh`). | `C156_independent`: every part of an event is shown to be a decision tree of bounded depth that reads one draw after another and never looks back (Lemmas/Independence, `Local`), through processes, particle loop, time loop, source and event loop; by induction over such a tree the mean of what comes next does not depend on the place in the stream and factors out. `C156_independent` holds for all sources, fields, processes and observables; `C156_product` for any number of events; `C156_alike` and `C156_repeated`: primaries with the same sample have the same law (the name of the event changes nothing, Lemmas/Renaming), so they are repetitions of one experiment. The next event is described without histograms, which change nothing (C142); drawing the primaries beforehand is C101/C113, two threads sharing a generator is C107. |
| C157 | On top of C156. `Spec/LargeNumbers` names what a number of events leave (`Finals`) and the part of them with a property (`fraction`). | `C157_fraction`: the probability of each record of successes and failures is a product (C156), the records exclude each other, and the mean and variance over all records follow by induction on the number of events, then Chebyshev. No measurability is assumed beyond the two probabilities adding up to 1, since lower integrals are superadditive. `C157_mean`: the same for the mean of a bounded whole number (`eventMean`, `eventExpected`), with records of its values instead of successes. |
| C158 | `Spec/Arrangement`: two configurations have the same settings (`SameSettings`) if each entry of one is in the other, in a section of the same name; lines write a configuration down (`Writes`) if they are its lines between comments and blank lines. | `C158_arrangement`: the whole program does the same with both files, in any arithmetic. By what the reader finds in a well-formed file (C59), comments changing nothing (C60), and the run depending only on the values found (C150). |
| C159 | `placedOf` in `Model/Geant`: the places and times after `PostStepDoIt`, in which only `Initialize` sets them. `Spec/Placement`: what it should be (`Continues`): the places of the simulation in millimetres, and the time of the crossing added. | `C159_refuted`: false of every crossing with a positive end time, in every field, since the clock stands still; `C159_place_refuted`: without field the simulated lepton has moved by its velocity times the time and the track has not. `C159_near_partial`: by an invariant of the loop, lepton and photons are misplaced by at most the way of light during the crossing, which is shorter than the end time plus a time step. |
| C160 | `Model/Package`: the table files that the installation copies, and the assignment to the environment on import. | `C160_emission`, `C160_pairs`: loading after import gives the same result as loading from the source tree, in any arithmetic; `C160_shipped`: with the shipped files the tables are complete (with C98) `C160_others`: loading from any other directory is not changed by the installation. |
| C161 | `Spec/Sums`: a histogram before anything is counted (`Hist.blank`), the content of a bin, and the events and sources of a run each recorded in histograms of their own (`EachAlone`, `SourcesAlone`). | `C161_events`, `C161_sources`, `C161_run`: bin by bin sums over events and sources. By a simulation between a run and the same run with constants added to its histograms, through every step of the time loop, and induction on events and sources. |
| C162 | `Spec/Selection`: the emission process with another threshold, fraction and tracking (`keeping`), and where the first particle of an event is (`FirstIn`). | `C162_refuted`: with the same random numbers, another threshold gives the lepton of a quantum simulation another momentum after two steps, because a photon above the threshold uses up random numbers that a photon below it does not. `C162_law_partial`: over independent uniform random numbers the law of its position and momentum is the same, by C118. `C162_continuous_partial`: in classical and semiclassical simulations every particle of the start is the same, whatever the random numbers and in every arithmetic. |
| C163 | The pushers of C29 with the invariant quantum parameter of C102 and the true motions of C121 (`Spec/Invariant`, `Spec/Reaction`, `Spec/Motion`). | `C163_weak`: the factor between the two reaction forces lies between `1 - 8 eta` and 1. `C163_strong`: and between `(1 + eta)^(-4/3) / 5` and `eta^(-4/3)`. `C163_motion`: computed classical and semiclassical tracks differ by at most the Grönwall bound for a difference `16/3 alpha eta³` of the forces plus an error of fourth order; from C121 for both pushers and Grönwall's inequality. |
| C164 | The numbers printed by `main` when built with OpenMP: the sum of events and thread 0's percentages, as functions of the events thread 0 is given (`Model/Console`); the usual block schedule (`Spec/Console`). | False: the sum wraps at `2^32` (`C164_announced_refuted`), the percentages are negative for sources of `2^31` events or more (`C164_negative_refuted`), above 100 for schedules that give thread 0 late events (`C164_schedule_refuted`), and start again with every source (`C164_sources_refuted`). `C164_announced_partial`: the announced number is right exactly when the total is below `2^32`. `C164_progress_partial`: for smaller sources and blocks of about the same size the percentages are exact if all threads are as fast as the first, lie in `[0, 100)` and increase; induction over the sources, modular arithmetic. `C164_double_partial`: in double precision they lie in `[0, 100)`, too, and never decrease; rounding is monotone. What is shown has two significant digits: it is off by at most half a per cent (`C164_shown_partial`), and from 99.5 on it is 100 before the source is done (`C164_shown_refuted`). |
| C165 | The events of C41 in double precision (`F64`), with the rounded clock of C96. | False: with a step of 0.1 the clock gains more than a step from the second to the third step, so that it passes two times that are a step apart, and the second histogram is filled one step late (`C165_refuted`). `C165_apart_partial`: histograms two steps apart are filled at the first step at which the clock has reached their time, which is off by at most one step; invariant on histCount and the error bound of the clock. |

## 3. Findings (disagreements between property and code)

Generated from `MANIFEST.json` by `tools/design.py`. The statement of C66 was made more precise after it was
first written (which defects of an input file count as invalid); no other statement was changed to fit the
code.

<!-- findings -->
* **C03** (RotateToAxis is a rotation onto the axis): False of the code: turning -y onto +y gives a matrix that leaves -y where it is (ThreeVector.hh:96-105 uses diag(-1,1,-1) for every antiparallel pair). Proved: always a rotation; maps v onto the axis unless nearly antiparallel; for the axis z used by the program within 1e-5 for all v. [`C03_refuted`]
* **C04** (Direction returns a unit vector): False of the code: ThreeVector.hh:91 discards the normalised vector. Proved: the result is the difference vector, a unit vector only for points one unit apart. [`C04_refuted`]
* **C06** (Interpolation is exact at the last sample point and continuous at both ends of the table): False of the code: at the last sample point Interpolate1D extends the first segment (lIndex/hIndex keep their initial 0,1); above it the result is off the straight continuation by one data increment (Numerics.cpp:36-41 measures from the last but one sample but starts at the last datum). Proved: exact values in all three end cases. [`C06_last_point_refuted`, `C06_above_refuted`]
* **C08** (Bracketing lookup): False of the code: ClosestPoints exits with -1 for every query above the last but one sample (compares with size-2). Proved: correct bracketing up to the last but one sample. [`C08_refuted`, `C08_last_interval_refuted`]
* **C09** (Simpson's rule is exact on cubics): False for even numbers of points (two points and constant 1 give 2/3). Proved: exact on all cubics for every odd number of points from three. [`C09_refuted`]
* **C10** (Discrete sampling reaches every index in proportion to its weight): False of the code: the search starts at index 1, so index 0 is only returned when no cumulative weight exceeds the draw. Proved: index 0 is never drawn for two or more positive weights, and index 1 gets the weight of both; every later index has exactly its weight. [`C10_first_index_refuted`, `C10_refuted`]
* **C11** (SetSeed determines the random sequence): False of the code: SetSeed seeds the C library generator, which no sampling function uses. Proved: sampling results are a function of the generator state alone and SetSeed leaves it unchanged. [`C11_setSeed_no_effect_refuted`, `C11_refuted`]
* **C15** (Recorded times belong to the recorded positions): False of the code: a push records the time before the step together with the position and momentum after it, so the recorded time lags by one step. Proved: exactly which time is recorded by pushes and recoils. [`C15_refuted`]
* **C18** (Source beam points along the configured direction): False of the code: GenerateList applies the matrix that turns the direction onto z to the vector z, so the transverse components of the direction are reversed; a source along x shoots along -x. Proved: the exact emitted direction for every configuration, and that it is the configured one exactly for directions along +z or -z. [`C18_refuted`]
* **C19** (Source particles have the sampled energy): False for leptons: the constructor takes the energy as momentum magnitude, so the particle reports sqrt(1+E^2), larger than E for every sample. Proved: exact reported energy for all types; photons with E >= 0 are right. [`C19_leptons_refuted`]
* **C20** (Mono-energetic sources): False of the code: the default branch samples uniformly between mean and sigma. With the default sigma 0 and any positive mean this violates the precondition of std::uniform_real_distribution. Proved: mono-energetic exactly when mean = sigma; otherwise values in [mean, sigma]. [`C20_default_spread_refuted`, `C20_refuted`]
* **C21** (Laser fields are transverse electromagnetic waves): False of the code: B is (sin, cos) of the polarisation angle instead of (-sin, cos). Proved: a wave exactly when the angle is a multiple of pi; E and B transverse and equally strong for every angle; directions within 1e-5 of -z excluded. [`C21_refuted`]
* **C23** (Laser focus lies at the configured focal point): False of the code: the field depends only on focus - start, the focus is always at the coordinate origin (proved for all parameters). Proved: with the focus at the origin the Gaussian pulse peaks there at the right time. [`C23_ignores_position_refuted`, `C23_gauss_refuted`, `C23_focusing_refuted`]
* **C24** (Focusing pulse has finite support and its polarisation angle only rotates it): First half proved. Second half false: the second polarisation assignment uses the overwritten x component; at angle pi/2 a field of 1/sqrt 2 becomes zero. Proved for multiples of pi, and that the longitudinal electric field does not depend on the angle. [`C24_magnitude_refuted`]
* **C25** (Plane laser is a travelling wave): False within 1e-5 of -z (RotateToAxis treats these as -z). Proved for all other directions, -z included. [`C25_refuted`]
* **C32** (Stochastic emission conserves momentum): False of the code when the photon has more energy than the lepton had momentum: the photon direction is read after the recoil (StochasticEmission.cpp:46-48), so it flies backwards. Proved: conserved whenever the photon energy is below the lepton momentum; violated for every stored photon above it. [`C32_backward_refuted`, `C32_refuted`]
* **C33** (Full sampling stores every photon): False of the code: the test is sampleFrac < rand, so with sample fraction 1 no draw in [0,1) ever stores a photon (proved for all draws). [`C33_never_refuted`, `C33_refuted`]
* **C34** (Photon sampling is unbiased): False for stochastic emission: the expected stored weight is (1-f)w/f, equal to w only for f = 1/2. Proved: continuous emission is unbiased for every f in (0,1]. [`C34_stochastic_refuted`, `C34_refuted`]
* **C36** (Breit-Wheeler conversion conserves charge, energy and weight): False for a list with one free slot (the electron is dropped while the photon dies) and for splits that leave a lepton less than its rest energy (square root of a negative number: NaN momentum). Proved: everything as stated when two slots are free and both shares reach the rest energy. [`C36_one_slot_refuted`, `C36_nan_refuted`]
* **C37** (Field-free regions do not disturb a photon): False of the code: in zero field chi=0, log10 gives -inf and a table that starts flat, as the shipped pairprod table does (C37_shipped_refuted), gives -inf*0 = NaN; the optical depth stays NaN and the photon never converts in any later field (proved for every event). Proved: tables that rise at the start leave the photon unchanged. [`C37_vacuum_refuted`, `C37_nan_never_converts_refuted`, `C37_event_refuted`, `C37_shipped_refuted`]
* **C38** (Emitted photons never carry more than the lepton energy): False below the first eta of the table (C38_refuted). Proved for eta not below it, for rows with ties and rows that do not start at 0, as in the shipped table; C38_loaded_partial proves it for every square table loaded from files. [`C38_refuted`]
* **C42** (Particle clocks agree with the simulation clock): False of the code: the particle loop reaches particles created in the same step and pushes them once more. Proved: particles present at the start keep the simulation time while alive; every secondary is ahead by a whole number (at least one) of steps. [`C42_refuted`]
* **C46** (Histogram type selects the binned quantity): Proved for type energy; refuted for x, y, z, px, py and pz (C46_refuted): the test `m_type == "Energy" || "energy"` is always true, so every histogram bins the energy (C46_type_ignored). [`C46_refuted`]
* **C47** (Histograms count particle weights): Proved for weight one; refuted for every other weight (C47_refuted): bins are incremented by one and the weight is never read. [`C47_refuted`]
* **C48** (Normalised histograms sum to one): Ratios are preserved in full. The sum is one provided the entry counter, left uninitialised by the constructor, does not wrap to zero; C48_refuted is the wrapping case. C48_empty_is_nan: with nothing inside the range all bins become NaN. [`C48_refuted`]
* **C50** (Single-bin histograms work): Refuted for every range and particle sequence (C50_refuted): the only bin centre is NaN, so nothing is ever counted. [`C50_refuted`]
* **C51** (Output tables list every particle once, in order): The arrays handed to the file are right for every order of the store calls (below 2^29 rows of a species); with 2^29 rows or more the copy writes out of bounds, and the file itself never receives the tables (C54). [`C51_refuted`, `C51_many_rows_refuted`]
* **C52** (Converted photons are not reported): False: dead photons stay in the list and in tables and histograms. Exact condition proved for the table; concrete event refutes it for both. [`C52_refuted`]
* **C53** (Every source with output is saved): False: no history of calls that returns normally leaves anything in the file; even with all groups present a second source always collides with the first on the name of the table. [`C53_refuted`, `C53_second_source_refuted`]
* **C54** (AddGroup makes the group exist): False for every file and every name; exact behaviour proved. Assumes H5Gget_objinfo returns 0 for an existing object and a negative number otherwise. [`C54_refuted`]
* **C55** (MPI gathering is complete, ordered and deadlock free): Proved for all rank counts, sources and schedules, with and without buffering by the MPI library, with the file abstracted: every execution is finite, never deadlocks, and the gathered tables are in rank order (C55_partial). False of the code as a whole: writing to a new file always throws (C55_refuted, see C54), and 2^28 or more rows make the int array size negative (C55_many_rows_refuted). [`C55_refuted`, `C55_many_rows_refuted`]
* **C56** (MPI histogram reduction is exact under every arrival order): Proved for all rank counts, histogram counts, arrival orders: bin-wise sum over all ranks in exact arithmetic (C56_partial); in any arithmetic the sum in some order of the ranks (C56_order_partial). False of the code as a whole: writing a histogram always throws (C56_refuted, see C54). [`C56_refuted`]
* **C57** (Threads never share a primary): False of the code: the sample counter is a plain shared integer. Proved: a single-threaded (or serialised) execution gives each sample once; any execution stays in range and completes; the program has a data race exactly when two threads still have events to start; two threads can get the same sample, and a particle can mix components of two samples (witness schedules). [`C57_shared_sample_refuted`, `C57_mixed_sample_refuted`, `C57_refuted`]
* **C58** (Field grid output is a faithful row-major table): Proved up to 2^32 grid points; false above, where the 32-bit index wraps. [`C58_refuted`]
* **C60** (Comments and blank lines are inert): Proved for files whose lines have at most 199 characters. False for longer comments (C60_refuted): the rest of the line is read as a new line. [`C60_refuted`]
* **C61** (Names are case-insensitive, sections included): Values are found in any case; section detection is case-sensitive, so a file with [general] is rejected although its values are found (C61_refuted). [`C61_refuted`]
* **C62** (Parse errors report the first bad line and do not hide later lines): Proved for files whose lines have at most 198 characters and that do not start with a byte order mark. False for longer lines (C62_refuted). [`C62_refuted`]
* **C63** (Long lines are read whole): Proved for lines of at most 199 characters. False for longer ones (C63_refuted): the value is cut. [`C63_refuted`]
* **C64** (Three-vectors are read as documented): Proved for the form with spaces after the commas. False for [a,b,c] without spaces (C64_refuted, read as one number), for capital exponents (C64_upper_refuted, 1E3 is read as 13) and for the default (C64_default_ignored). [`C64_refuted`, `C64_upper_refuted`]
* **C67** (All numbered sections are read): Holds for sections that have at least one entry. An empty section is not recorded, which also hides all sections with higher numbers (C67_refuted). The section counter is not taken modulo 2^32. [`C67_refuted`]
* **C69** (Command line handling): When a run starts is characterised exactly. An argument of fewer than four characters other than -h ends in an uncaught std::out_of_range instead of an error code (C69_refuted). [`C69_refuted`]
* **C70** (Run manager calls are memory safe in any order): False of the code: a beamOn that is turned down after an earlier one that ran leaves dangling pointers. Proved: destruction (and any further beamOn) is a double free exactly for histories in which a started run is followed by one turned down for an incomplete configuration. [`C70_refuted`]
* **C71** (Run manager accepts the documented physics names): False of the code: the documented name "classical" is rejected and the misspelling "clasical" is accepted and runs the quantum model. Proved for all other strings: accepted exactly if documented, and every event of a run is an execution of the named model's equation of motion and emission process. [`C71_refuted`, `C71_misspelt_refuted`]
* **C72** (A rejected run leaves no partial results and needs a full configuration): False of the code for the end time, which is never checked (an end time of zero runs and replaces the results). Proved: beamOn goes ahead exactly when field, physics, beam and a non-zero time step are in place and the thread count is allowed; a call that does not run changes neither results nor settings. [`C72_refuted`]
* **C73** (Result arrays have consistent shape and content): Proved for every number of threads and distribution of events: one row per particle, complete rows. The row counts of the getters are 32-bit, so the shape theorem assumes fewer than 2^31 particles of a species; a negative number of events is refuted (beamOn(-1, 1) runs 2^32-1 events and reports -1 rows). [`C73_refuted`]
* **C77** (The Geant4 emission process frees its particle once): False: no history exists after which the process can be destroyed without undefined behaviour; after a field was set and a PostStepDoIt was made it is a double free. Proved: exactly which histories get as far as the destructor, and that each internal particle is freed once before it. [`C77_refuted`]
* **C78** (The laser field oscillates in time): False for the Gaussian and focusing lasers: their phase does not contain the time, so at a fixed point the field never changes sign (proved for all parameters). Proved for the plane laser. [`C78_pulses_refuted`, `C78_refuted`]
* **C80** (Requested histograms and tracks are saved): False: output of a histogram throws in every state; output of tracks returns only if there are none. [`C80_histogram_refuted`, `C80_tracks_refuted`]
* **C81** (A run manager frees what it allocates): False of the code: the processes are never deleted. Proved: the number of objects left after destruction is exactly the number of processes created. [`C81_refuted`]
* **C82** (Geant4 receives the surviving particles with their kinetic energy): False: consumed photons are fired too, and the energy given is the total energy. Proved: the exact condition under which the claim holds; species and direction are always right. [`C82_refuted`]
* **C83** (A lepton that nothing happens to keeps its energy in Geant4): False for every lepton: the kinetic energy is used as the momentum and the total energy is proposed as kinetic energy, so it comes out as sqrt(m^2+T^2). Proved: direction kept, no secondaries, the loop ends. [`C83_refuted`]
* **C84** (The emission process acts once per crossing): False: the process acts on every other step inside the field, and the switch is shared between tracks. Proved: the exact condition on the numbers of steps. [`C84_refuted`]
* **C85** (The surrogate's photons come from the photon model): False: the photon sample is never used; all photons of a crossing are copies made from the electron sample, with the square of the momentum as energy; a photon model with fewer components than the electron model is read out of range. Proved: the number of photons and safety when the models have as many components. [`C85_refuted`]
* **C87** (The grid of the photon-energy table runs from the smallest chi to half eta in each row): C87_eta and C87_row give the axes. The property is false: the chi spacing divides by the number of rows, so it holds for a row exactly if there are as many columns as rows (C87_span_iff_partial); C87_refuted is a 2 by 3 table. [`C87_refuted`]
* **C88** (Missing or incomplete table files are reported): False: an unset variable makes a string from a null pointer (C88_unset_refuted), a short pair table is filled up with its last pair (C88_short_refuted) and missing entries of the energy table stay unwritten (C88_unwritten_refuted). Proved: the program exits exactly when a file is missing. [`C88_unset_refuted`, `C88_short_refuted`, `C88_unwritten_refuted`]
* **C90** (Counts in the input file mean what they say): False of negative counts (C90_negative_refuted), numerals with a leading zero (octal, C90_leading_zero_refuted) and numerals with an exponent (C90_exponent_refuted). Plain decimal numerals below 2^32 are taken at their value (C90_plain_partial). [`C90_negative_refuted`, `C90_leading_zero_refuted`, `C90_exponent_refuted`]
* **C92** (Data sets hold the recorded numbers): About the code after AddGroup, for a file that has the group; by C54/C80 the code as a whole never gets there. C92_gamma_refuted: Lorentz factors of tracks are multiplied by the time unit. Grids above 2^32 points are excluded (C58_refuted). [`C92_gamma_refuted`]
* **C93** (A run saves what its input asks for): False of every input that asks for output: no such run ends normally, because AddGroup never makes a group (C54). C93_normal_end_partial: a run that ends normally had nothing to save and leaves an empty file. [`C93_refuted`]
* **C94** (No input makes the program run into undefined behaviour): Exact condition (C94_undefined_iff_partial): with tables of consistent sizes there is undefined behaviour if and only if a source that is not Gaussian has a spread below its mean energy (std::uniform_real_distribution with the limits the wrong way round). C94_refuted: a file that gives a source's mean energy and neither distribution nor spread is enough. Single-threaded build without MPI; the threads are in C57. [`C94_refuted`]
* **C95** (Every run ends): False for time steps that are zero or negative, which no check rejects: a photon is then followed forever (C95_refuted). Proved for positive time steps or a non-positive end time in exact arithmetic (C95_ends_partial); C95_photons_partial gives a class of runs that end normally. [`C95_refuted`]
* **C96** (The time loop keeps time in double precision): In IEEE doubles the number of steps is exact when the clock needs no rounding (C96_exact_partial); with rounding, up to 2^26 steps, it is right up to one step and the clock is off by at most n^2 units in the last place of the step, less than half a step (C96_near_partial); every event ends if the end time is at most 2^51 steps (C96_ends_partial, C96_program_partial for the whole program). False in general: with a step of 0.1 and an end time of 1 there are 11 steps instead of 10 (C96_extra_step_refuted), and with a step of 1 and an end time of 2^54 the clock sticks at 2^53 and no event ever runs to its end (C96_stuck_refuted). [`C96_stuck_refuted`, `C96_extra_step_refuted`]
* **C97** (Histogram counts are exact in double precision): Counts are exact up to 2^53 particles per bin, more than an event can hold (C97_counts, C97_exact), the bin is the nearest one by rounded distance (C97_nearest) and unique (C97_one_bin), and sums over ranks are exact whatever the schedule (C97_ranks). Beyond 2^53 counts are lost (C97_refuted). Ranges of magnitude above 2^900 are not covered. [`C97_refuted`]
* **C99** (With the shipped tables, both leptons of a pair get a share between 0 and 1): C99_negative_refuted: for every chi between about 108.7 and 884 (log10 chi in (2.036, 2.946]) a draw of at most 0.0006 gives the positron a negative share, because the draw lies below the first entry of the row and Interpolate1D continues the first segment. C99_energy_refuted: photons of at least 20000 electron masses then convert into leptons with more energy than the photon had. C99_exit_refuted: above about 884 the program ends with code -1. C99_share_partial: for log10 chi in [-2.301, 1.9826) all shares lie in (0, 1.0000000000000007]. Missing: chi below the table, and chi between 96.1 and 108.7, where the two neighbouring rows differ. [`C99_negative_refuted`, `C99_exit_refuted`, `C99_energy_refuted`]
* **C101** (Sampled energies follow the tabulated distributions): Proved for every tabulated chi and eta except the last one, and between tabulated values, over the real numbers and with the shipped tables. C101_last_refuted: at the last tabulated value nothing is sampled; ClosestPoints ends the program there (C08). [`C101_last_refuted`]
* **C102** (Eta and chi are the Lorentz-invariant quantum parameters): Proved for every particle that moves, with the field tensor and Lorentz transformations as in textbooks. C102_rest_refuted: at rest the direction is 0/0, so eta is NaN in any field, although the invariant is the electric field strength. [`C102_rest_refuted`]
* **C106** (Threads lose no histogram entries): False of the code: entry counter and bins are plain shared variables. Proved for all schedules: adding never fails and can always be finished; no bin ever holds too much, and a bin with at least one particle holds at least one; a bin is exact under every schedule if and only if at most one thread has particles for it; without overlapping calls the histogram equals a sequential one; there is a data race exactly when two threads add particles. Model: sequentially consistent micro-steps; which particles a thread adds is fixed beforehand. [`C106_refuted`]
* **C107** (Threads draw different random numbers): False of the code: the generator is one unlocked object. Proved for all schedules: draws can always be finished, and use only as many elements of the sequence as there are draws; all draws differ under every schedule if and only if at most one thread draws; a data race exists exactly in the other case; two threads can get exactly the same numbers throughout, so that two events are copies of each other. Model: a draw is one read and one write of the generator's position. [`C107_copies_refuted`, `C107_refuted`]
* **C109** (Electrons and positrons are mirror images): Proved in both directions for events with any of the pushers and radiation processes, in every arithmetic with exact signs: real numbers, real numbers with infinities, and bit for bit in double precision. Pair production is insensitive to the sign of the fields, but with the same draws it gives the same pair and not the exchanged one, so the property fails for single events with pair production; whether it holds in distribution depends on the symmetry of the table of shares and is not proved. [`C109_refuted`]
* **C111** (Particles do not influence each other): Proved in both directions as long as the particle list does not fill up. A full list drops secondaries of whichever particle comes later, so there the claim is false (refuted with a witness). [`C111_refuted`]
* **C112** (Fields change the energy of a particle by the work they do): Real arithmetic. Exact conservation is false (C112_refuted: one large step in a uniform magnetic field raises the energy). Proved: the energy is off by at most an explicit constant times the time step, in every smooth field with a potential, and by a constant times its fourth power if the field has four continuous derivatives (C112_fourth_partial); the momentum along a uniform magnetic field is exact. [`C112_refuted`]
* **C114** (The surrogate samples the distribution that its model describes): False. The variable that is made skew is not a standard normal one: it already has the mean of the component and the square root of its width. C114_refuted: without skew the samples have mean m(1 + s) and variance s^3 instead of m and s^2. C114_law gives the actual distribution, C114_iff_partial says for which parameters it is the right one (width zero, or mean zero and width one). [`C114_refuted`]
* **C115** (Missing or incomplete files of the surrogate are reported): False. Missing models are reported by an exception (C115_models_partial), but missing or short files of numbers are not: loading succeeds and the crossings use indeterminate values (C115_refuted). With complete files crossings are as described (C115_complete_partial). [`C115_refuted`]
* **C116** (The surrogate process frees what it allocates): False. The destructor deletes a pointer that nothing ever sets, after every history (C116_refuted), and models and sessions are never freed (C116_leak). C116_calls_partial: until then every history in which models are loaded first is defined. [`C116_refuted`]
* **C117** (The electron leaves the surrogate with the momentum that it predicts): False. The total energy is proposed where Geant4 expects the kinetic energy, for every crossing (C117_refuted); the direction is right (C117_direction_partial). [`C117_refuted`]
* **C119** (Fields given to the Geant4 emission process are taken in SI units): Proved for plane lasers (C119_plane_partial). False for static fields, which are used as multiples of the Schwinger field (C119_static_scale, C119_static_iff, C119_static_refuted), and for the start and focus of a Gaussian pulse, which are used as multiples of the internal unit of length, so that the pulse passes long before light from its start point could (C119_gauss_scale, C119_gauss_refuted). [`C119_static_refuted`, `C119_gauss_refuted`]
* **C120** (The lasers are solutions of Maxwell's equations): True of static fields (C120_static) and of plane lasers exactly when the polarisation angle is a multiple of pi (C120_plane_iff, C120_plane_partial, C120_plane_refuted). False of every Gaussian laser along z (C120_gauss_refuted) and of every focusing laser along z with polarisation angle 0 (C120_focusing_refuted): their carrier does not depend on time (see C78). [`C120_plane_refuted`, `C120_gauss_refuted`, `C120_focusing_refuted`]
* **C121** (The pushers are of fourth order): Proved for all three pushers near solutions along which the fields have four continuous derivatives (for the Landau pushers also while the momentum, for the modified one eta, does not vanish). Static fields and plane waves qualify everywhere. In the focal plane z = -1e-99 of the pulses the code divides by zero; in arithmetic with infinities the wave fronts are then flat, and C121_gauss proves the order of the Lorentz pusher through the focus of the Gaussian pulse. The focused pulse qualifies off the surface at which the code cuts it to zero; C121_cut_refuted shows that there the error is of first order in the step. [`C121_cut_refuted`]
* **C122** (The shipped example does what it says): False in its last part: with the shipped tables every run of the example ends with an error code or an uncaught exception, so nothing is saved (C122_refuted, from C93). The rest holds: C122_read, C122_setup, C122_steps, C122_histograms, C122_collision and C122_beam. Steps and histograms are those of events that run to their end. Numbers are exact reals. [`C122_refuted`]
* **C123** (A simulation started from Python comes back): False of negative time steps: a beam of photons is then simulated for ever (C123_refuted). False of unknown particle names: exit(-1) ends the interpreter (C123_exit_refuted). C123_undefined_iff_partial says exactly when a call is undefined, given loaded tables and thread numbers in range: an earlier double free (C70) or energies in the wrong order. C123_ends_partial: with a positive step every call ends. Events run one after the other; threads that run at the same time are in C57. Over the real numbers. [`C123_refuted`, `C123_exit_refuted`]
* **C124** (The shipped Python example does what it says): Proved for the calls of the script on a new run manager: the settings that reach the simulation, 2000 steps per event, the pulse and its collision with the beam, the primaries, the paths of the electrons and the shape and contents of the four arrays. The script declines to run in a build without OpenMP because it asks for two threads (C124_refuted), and its two threads race for the samples of the beam (C124_race_refuted). C124_runs_partial: with OpenMP it ends with results or with exit(-1); C124_completes_partial: with results whenever the tables reach up to the quantum parameter along the paths of the electrons; C124_shipped_partial: with results with the shipped tables, unless a sample of the energy is more than 40 standard deviations from the mean. The standard deviations of zero that the script passes for the radius, duration and divergence of the beam violate the precondition of std::normal_distribution, which the model does not enforce. [`C124_refuted`, `C124_race_refuted`]
* **C125** (The photons of a classical or semiclassical run stand for what is radiated): C125_law is the complete law of the photons after n steps of an event with a single lepton, including a full list; C125_path says that the lepton's path is independent of the draws. C125_mean_partial, C125_unbiased_partial and C125_number_partial assume that the list has room for one photon per step. C125_capacity_refuted: with the sample fraction 1 the radiation of all steps after the list is full is missing. C125_tables_iff says when the lookups succeed. [`C125_capacity_refuted`]
* **C126** (A lepton gains no more momentum than the fields give it): C126_lorentz: without radiation reaction, for every time step. C126_eta: the quantum parameter. With radiation reaction C126_reaction_partial needs that the forces change the momentum by at most half in each step, C126_bound_partial a condition on the start only and gives the bound up to six times what the forces add to a slow particle in a step. C126_refuted: with a time step that is too long the reaction alone turns an electron around and leaves it with many times the momentum the fields could give. [`C126_refuted`]
* **C127** (The energy of a cascade comes from its primary and the fields): False of every emission: the photon's momentum is taken from the lepton and the energies after it exceed the energy before by the difference of 1/(E+p) of the lepton after and before (C127_emission_refuted). Every conversion keeps the energy and loses momentum (C127_conversion_refuted). What holds: an emission gains at most sqrt(2) rest energies if the photon has no more energy than the lepton (C127_emission_partial; with the shipped tables C100 gives that), and over an event with the Lorentz pusher and stochastic emission the energy of all particles is at most that at the start, the charge times the field strength times the elapsed time of each particle, and sqrt(2)/2 per draw (C127_event_partial). Missing: pair creation and radiation reaction pushers in the event theorem. [`C127_emission_refuted`, `C127_conversion_refuted`]
* **C128** (A parallel run simulates the events asked for, once): False of every run with at least two processes: each process simulates all events of the file, so with one source of N particles the table of primaries has n*N rows and n of them carry each event number (C128_refuted, for every schedule). What holds (C128_union_partial): for every input and every number of processes the run is finite, never stuck and ends with the tables of all processes in rank order and the sums of their histograms; on every process every source has its configured number of events. The writing of the file is abstract, see C54. The processes' random numbers are arbitrary. [`C128_refuted`]
* **C129** (A laser pulse asked for in SI units is that pulse): Exact: the field strength in SI units is that of the pulse asked for, displaced by minus the focus, at every place and time, for input files (C129_file_displaced) and every history of Python calls (C129_python_displaced); so it is the pulse asked for when the focus is the origin (C129_python_partial). False for every other focus: when light from the start reaches the focus, the field there is below the peak (C129_refuted). The phase has no time in it (C78), and the radius of curvature carries the shift of 1e-99 of the code. Directions within 1e-5 of -z are left out (C25). [`C129_refuted`]
* **C130** (A bunch has the place, size, length and spread asked for): False off axis: the whole bunch, places and momenta, is laid about the direction mirrored in z (see C18), so a bunch asked for off axis has its length along another line and flies along another line. Proved: the exact joint law for every configuration (normal places, normal angles, uniform azimuths to twelve digits of pi, spectrum), that it is the bunch asked for exactly for directions along +z or -z, and that any divergence or any width of a Gaussian spectrum gives every particle a positive chance to fly backwards (the sampled energy is used as a signed momentum). The energies here are sizes of momentum: see C19. [`C130_refuted`]
* **C131** (Massive particles never outrun light, in double precision): False of the code: rounding lets a free electron with momentum (15, 8, 0)*2^30 m c move by more than 6 in a step of 6 (C131_overtakes, C131_refuted), and every lepton with a momentum of at least 2^28 m c reports a speed of exactly 1 (C131_beta_refuted). Proved: whenever the coordinates stay finite, for every force law and field, the velocity is at most 1 + 12/2^53 (C131_velocity_partial), a push moves a lepton by at most (1 + 2^-47) dt plus the rounding of the coordinates themselves (C131_push_partial), n pushes by n times that (C131_pushes_partial), and the reported speed is in [0, 1] (C131_beta_partial). The mass of every lepton of the program is 1, as these theorems assume. [`C131_refuted`, `C131_beta_refuted`]
* **C132** (Repeated names and continued lines): Proved for lines up to 199 characters and names up to 49. False beyond: a line that continues the value of a name of 50 characters or more is stored under the name cut to 49 characters. [`C132_refuted`]
* **C135** (Uniform random numbers): Proved in exact arithmetic, and in double precision up to the closed end for ranges that start at zero. False in double precision: RandDouble(1, 2) returns 2 for the largest draw below 1. [`C135_refuted`]
* **C136** (The optical depth in double precision): False of the code: an amount below 2^-54 of the depth is lost in the difference, so an electron in a weak field with a positive amount per step never radiates, however many steps (C136_refuted, C136_lost). Proved: while the depth is not negative it differs after n steps from the exact value by at most n*2^-53 of the first value (C136_error_partial), which bounds the moment of emission from both sides (C136_moment_partial). [`C136_refuted`]
* **C137** (A run started from Python simulates what the program would with the same settings): False of the code for two kinds of settings: the documented physics name classical is refused by beamOn (C137_name_refuted), and a sample fraction outside [0,1] is used by the program but ignored by the Python interface (C137_fraction_refuted). Proved for all other settings that both can express with one beam and a gaussian or focusing field, without tracking, histograms and an energy threshold: the same events with the same final states (C137_events_partial), and the program ends normally exactly when beamOn does (C137_program_partial). Missing: several beams, tracks and histograms, which Python cannot ask for, and the other fields. [`C137_name_refuted`, `C137_fraction_refuted`]
* **C138** (Charges move in a plane laser as the exact solution says): False of the code for polarisation angles that are not multiples of pi (C138_refuted, for every such angle): the magnetic field of the plane laser is then not that of a wave along its direction, and a positron gains light-front momentum at any time step. Proved for every plane wave (C138_wave) and for the plane laser with angles that are multiples of pi (C138_plane_partial), except for directions within 1e-5 of -z. [`C138_refuted`]
* **C139** (A charge circling in a magnetic field loses energy as classical electrodynamics says): False of the code at every speed below that of light (C139_refuted, for every charge across every magnetic field): the reaction force has the size of the radiated power, so the power it takes from the charge is the radiated power times the speed. Proved (C139_energy_partial): the energy follows the closed-form solution for the force of the code, whose momentum falls as p/(1 + kappa p t), up to a constant times dt^4; at the speed of light this is the classical loss. [`C139_refuted`]
* **C140** (Results do not depend on the motion of the observer): False with radiation reaction (C140_refuted, both reaction pushers): the code adds a force of fixed size against the momentum in the frame of the simulation, and in a constant electric field the computed momenta of two frames do not come together. Proved for the Lorentz pusher: tracks of two frames differ by no more than a constant times the time steps (C140_tracks_partial); the chance of no emission and of no conversion have the same limit in both frames (C140_emission_partial, C140_conversion_partial) while eta and chi stay inside the table. Missing: tracks with the reaction pushers, where it is false. [`C140_refuted`]
* **C142** (Watching an event does not change it): Proved for the event loop in every arithmetic: tracking (C142_tracking, C142_tracking_abort, C142_tables, C142_setup), saving (C142_saving) and histograms with bins (C142_histograms, C142_histograms_partial) change nothing. False parts: a histogram without bins ends the program at the first particle of its species (C142_histograms_refuted); a histogram whose time has not come holds up those behind it in the file, so that they show another time (C142_others_refuted), while histograms in the order of their times and at least one step apart each show what they would show alone (C142_others_partial); adding a histogram to an input file on which the program ends normally makes it fail at the end, because its group is never created in the output file (C142_program_refuted). [`C142_histograms_refuted`, `C142_others_refuted`, `C142_program_refuted`]
* **C145** (Photons carry what radiation reaction takes): False of the code: the tables and the pushers do not agree. In a classical run the chi axis is entered with exp of a decimal logarithm (about 0.028 of the momentum is missing); proved: at most 98 percent is carried, for every field. In a semiclassical run the interpolated tables give more than the Gaunt formula takes at eta = 10^(-5+2/33); proved: at least 100.2 percent. The exact law and an if-and-only-if criterion hold for all tables. Partial because runs that leave the tables or fill the particle list are excluded. [`C145_classical_refuted`, `C145_semiclassical_refuted`]
* **C146** (The check file shows what a run uses): False of the code: the amplitude of a plane wave, the polarisation of a pulse, the energy distribution of a source and the quantity of a histogram are not written to the check file (C146_hidden_refuted for all files, C146_refuted for ten concrete ones), and numbers are shown in internal units. C146_iff_partial says that nothing else is missing. Values stand for what is printed of them; the program prints six digits, so the file tells less. [`C146_hidden_refuted`, `C146_refuted`, `C146_units_refuted`]
* **C147** (With ever smaller time steps the sampled spectrum converges): False of a particle list of fixed size: C147_capacity_refuted shows that with every photon sampled the mean then goes to zero. C147_spectrum is the limit for a list that has room for a photon per step; C147_quantum_tables and C147_classical_tables show that the lookups of the code meet its hypotheses inside the tables. Smooth observables only: an observable that jumps, such as the count in a histogram bin, is not covered. [`C147_capacity_refuted`]
* **C150** (Mistakes in the settings file are noticed): False of the code: the result of the INI parser (ParseError) is never asked for, unknown names are never looked at, and GetReal, GetInteger and GetBoolean fall back to their defaults. C150_line_refuted, C150_name_refuted, C150_number_refuted, C150_count_refuted and C150_switch_refuted each show for all files that the program does the same with and without the mistake; no message is printed either (console output is not modelled). C150_depends_partial: what the program does depends on the file only through the names and sections it knows. Which missing parts are reported is C66. [`C150_line_refuted`, `C150_name_refuted`, `C150_number_refuted`, `C150_count_refuted`, `C150_switch_refuted`]
* **C151** (A lepton at rest is simulated like any other): False of the code. C151_reaction_refuted: with either radiation-reaction pusher a lepton at rest is lost at the first push, in any field, also in none. C151_silent_refuted: with quantum emission a lepton that still rests after the first time step never emits in the whole event. C151_moving_partial: for momenta from 2^-400 to 2^200 the quantum parameter and the optical depth stay numbers. [`C151_reaction_refuted`, `C151_silent_refuted`]
* **C152** (A photon from outside a laser pulse can make a pair in it): False of the code. C152_depth_refuted: with the shipped tables the pair process turns the optical depth of every photon without a field into NaN, and C152_never_refuted: such a photon never makes a pair again. C152_refuted: in a whole event a photon that is without a field after the first time step is only pushed. C152_gauss_refuted and C152_focusing_refuted: this is so for every photon 30 pulse lengths away from a Gaussian pulse, or where a focusing pulse is cut off. C152_inside_partial: in a field chi is a number and the optical depth stays one. [`C152_depth_refuted`, `C152_never_refuted`, `C152_refuted`, `C152_gauss_refuted`, `C152_focusing_refuted`]
* **C154** (A lepton emits as many photons as the rate along its path says): The claim as a user would expect it (the mean is the sum of the rates) is refuted for every lepton that can emit in its first step; the exact law, the two-sided bounds and the bound on the particle list are proved. [`C154_refuted`, `C154_number_refuted`, `C154_list_refuted`]
* **C155** (A time step is one interaction for every particle): Refuted for quantum emission with pair production: within one time step of any length the particle loop visits the particles it has just appended, so a single electron can fill a list of any capacity. The bound is proved for each process on its own; with both, a second generation from one lepton has a probability of at most the product of the two rates per step. [`C155_refuted`, `C155_likelihood_refuted`]
* **C159** (In Geant4 a lepton and its photons continue from where the crossing left them): False of every crossing: PostStepDoIt proposes neither a position nor a time, so the track and its photons continue from where and when the track entered, although the simulation has moved them. Proved: they are misplaced by at most the way of light in the time of the crossing. [`C159_refuted`, `C159_place_refuted`]
* **C162** (Which photons are kept does not change the motion of the leptons): False with the same random numbers in quantum simulations: a photon above the threshold uses one or two random numbers that a photon below it does not, so the next emission of the lepton differs. Proved: the probability law of position and momentum is the same; in classical and semiclassical simulations the leptons are the same. [`C162_refuted`]
* **C164** (What the console says about a run is right): False in five ways: the announced number wraps at 2^32, the percentages are negative from 2^31 events on, above 100 for schedules that give thread 0 late events, restart with each source, and are shown as 100 from 99.5 on. Proved: the announced number is right exactly below 2^32 events, and within a source of fewer than 2^31 events under the block schedule the percentages are right for equally fast threads, lie in [0,100) and increase; in double precision they lie in [0,100) and never decrease; what is shown is off by at most half a per cent. [`C164_announced_refuted`, `C164_negative_refuted`, `C164_schedule_refuted`, `C164_sources_refuted`, `C164_shown_refuted`]
* **C165** (Histograms are filled in time in double precision): False for times that are between one and two steps apart: C165_refuted gives a step of 0.1 and two times exactly one step apart, for which the second histogram is filled one step late in every event of five or more steps. Proved for times at least two steps apart. In exact arithmetic one step is enough (C41). [`C165_refuted`]
<!-- end of findings -->

## 4. Trusted base

### What is trusted

* The Lean 4.33.0 kernel, and Mathlib as installed.
* The axioms listed below, which are those of Lean's library. There are no others: no `sorry`, no
  `native_decide`, no `bv_decide`, no axioms of our own.
* The reading of the C++ text into `Verif/Model`. Every definition there cites the lines it models and says
  what it simplifies.
* That the English properties are what the theorems and `Verif/Spec` say.
* For C98 to C100 and `C37_shipped_refuted`: that `Verif/Data` holds the files in `/repo/Tables`. The modules are
  generated by `tools/tables.py`; `tools/tables-check.sh` lets Lean write the texts out again and compares them
  with the files byte by byte.

### What is assumed of libraries

* **HDF5**: `H5Gget_objinfo` returns 0 for an existing object and a negative number otherwise; creating an
  object throws if the name is taken or the parent group is missing.
* **MPI**: sends and receives between two ranks are in order for each tag; a blocking send may or may not
  wait for its receive (both are covered); receives from any source take any waiting message.
* **OpenMP**: threads interleave in any order, single loads and stores of the sample counter, of
  a histogram's counters and of the random generator's position being the atoms.
  Other effects of data races, which C++ leaves undefined, are not modelled beyond the statement that there is
  a race.
* **Geant4**: the kernel calls the process as its documentation says; its tracks, steps and changes are
  records of the values that the code reads and writes.
* **TensorFlow**: a model is a function from inputs to a list of outputs; a session can be created.
* **Eigen**: `LLT` succeeds exactly if there is a Cholesky factor and then returns it; the eigenvalue solver
  returns orthonormal eigenvectors and their eigenvalues; both read the lower triangle only.
* **C and C++ library**: `strtod`, `strtol`, `operator>>` on numbers and the `std::vector`, `std::string` and
  `std::map` functions behave as the standard says; `std::mt19937` and the distributions are a stream of draws
  in the stated range.

### What is modelled

* `Tools`: `ThreeVector.hh`, `ThreeMatrix.hh`, `Numerics`, `MCTools`, `UnitsSystem`.
* `Particles`: all files.
* `Physics`: all fields, pushers and processes, with table loading and unloading.
* `IO/Input`: `ini.cpp`, `INIReader`, `FileParser`. `IO/Output`: `Histogram`, `HDF5Output`, `OutputManager`
  with its MPI parts.
* `Tables`: the seven files that the processes load (`Verif/Data`).
* `Exec/QEDCASC.cpp`: all of `main` without MPI and OpenMP as one function (`Main.program`); the threads as
  a separate model; the MPI branch as the local work of a rank (`Mpi.localRun`) followed by its communication.
* `Python/RunManager`: all functions. `Geant`: `G4CascadeGenerator`, `G4StochasticEmission`, `G4CascadeTF`,
  `TensorflowGraph`.

### What is not modelled

* Rounding and overflow of `double`, except in C96, C97, C109, C131, C135, C136, C141, C143, C144, C151, C152, C153, C164 and C165, and the sign of zero. Theorems for every
  `Dbl D` hold regardless; theorems over `ℝ` are about exact arithmetic.
* Console output other than the numbers of C164, performance, exhaustion of memory.
* `QEDCascPy-Bindings.cpp`, `Python/test.cpp`, `G4CascadeTF::test`, the `RadField` interface (which nothing
  implements) and the build files.
* `HDF5Output::AddSubGroup` and the pointer `m_group`, which no other code uses.
* The contents of the shipped tables, beyond what a theorem states.
* The reading of the settings file in the constructor of `G4CascadeGenerator` (`G4CascadeGenerator.cpp:33-104`). It
  cannot be compiled as it stands: it uses a type `ProcessParameters`, a function `FileParser::GetProcess` and the
  members `pusher` and `minEnergy` of `GeneralParameters`, none of which `FileParser.hh` declares. C76 and C82 are about
  the rest of the class, with an arbitrary field, pusher, list of processes and source.

### Axioms of each property theorem

Generated by `tools/design.py` from `#print axioms`.

<!-- axioms -->
* Classical.choice, Quot.sound, propext (614 theorems): `C01_cross_laws`, `C01_products_are_standard`, `C01_norm_is_unit`, `C01_norm_zero_is_nan`, `C02_inverse`, `C02_product`, `C03_refuted`, `C03_rotateToAxis_partial`, `C03_rotateToAxis_z`, `C04_refuted`, `C04_direction_partial`, `C05_on_segment_ties`, `C05_interior_ties`, `C05_on_segment`, `C05_interior`, `C05_at_samples`, `C06_last_point_refuted`, `C06_above_refuted`, `C06_ends_partial`, `C07_nearest`, `C08_refuted`, `C08_last_interval_refuted`, `C08_bracket_partial`, `C09_refuted`, `C09_simpson_partial`, `C10_first_index_refuted`, `C10_refuted`, `C10_slices_partial`, `C10_probability_partial`, `C12_lepton`, `C12_photon`, `C14_histories_aligned`, `C15_recoil_entry_partial`, `C15_refuted`, `C16_initial_depth_nonneg`, `C16_created_with_depth`, `C16_emission_increment_nonneg`, `C16_pair_increment_nonneg`, `C16_stochastic`, `C16_pair`, `C16_depth_kept`, `C17_events`, `C17_depleted`, `C17_unknown_type`, `C18_mirrored`, `C18_aligned_iff`, `C18_along_z_partial`, `C18_refuted`, `C19_reported`, `C19_photons_partial`, `C19_leptons_refuted`, `C20_default_spread_refuted`, `C20_mono_iff`, `C20_range_partial`, `C20_refuted`, `C21_plane_iff`, `C21_gauss_iff`, `C21_transverse_partial`, `C21_refuted`, `C22_plane`, `C22_gauss`, `C23_ignores_position_refuted`, `C23_origin_partial`, `C23_gauss_refuted`, `C23_focusing_refuted`, `C24_support`, `C24_magnitude_refuted`, `C24_polarisation_partial`, `C25_plane_partial`, `C25_refuted`, `C26_one_push`, `C26_pushes`, `C27_subluminal`, `C28_uniform_E`, `C28_free_flight`, `C29_radiation_reaction`, `C29_not_vacuous`, `C30_dead_forever`, `C30_dead_inert`, `C31_charge_conjugation`, `C32_momentum_partial`, `C32_backward_refuted`, `C32_refuted`, `C33_never_refuted`, `C33_refuted`, `C34_stochastic_expectation`, `C34_stochastic_refuted`, `C34_refuted`, `C34_continuous_partial`, `C35_continuous`, `C35_parent`, `C36_conversion_partial`, `C36_one_slot_refuted`, `C36_nan_refuted`, `C37_vacuum_partial`, `C37_vacuum_refuted`, `C37_nan_never_converts_refuted`, `C37_event_refuted`, `C37_shipped_refuted`, `C38_loaded_partial`, `C38_energy_partial`, `C38_refuted`, `C39_no_outside_reads`, `C39_event`, `C40_steps_independent`, `C40_particle_loop_bounded`, `C40_steps`, `C40_terminates`, `C40_diverges`, `C41_filled_once`, `C41_timing`, `C42_primaries_partial`, `C42_secondaries_ahead_partial`, `C42_refuted`, `C43_charge`, `C43_alive_charge`, `C44_grow_and_keep_identity`, `C44_length`, `C45_counts`, `C45_event`, `C45_one_bin`, `C46_energy_partial`, `C46_type_ignored`, `C46_refuted`, `C47_unit_weight_partial`, `C47_refuted`, `C48_sum_one_partial`, `C48_refuted`, `C48_ratios`, `C48_empty_is_nan`, `C49_merge_adds`, `C49_incompatible`, `C49_any_order`, `C49_sum`, `C50_refuted`, `C51_tables_partial`, `C51_file_partial`, `C51_refuted`, `C51_many_rows_refuted`, `C52_refuted`, `C53_refuted`, `C53_second_source_refuted`, `C54_refuted`, `C54_exact`, `C55_partial`, `C55_refuted`, `C55_many_rows_refuted`, `C56_partial`, `C56_order_partial`, `C56_refuted`, `C57_in_range_partial`, `C57_completes_partial`, `C57_no_overlap_partial`, `C57_race_iff`, `C57_shared_sample_refuted`, `C57_mixed_sample_refuted`, `C57_iff_partial`, `C57_refuted`, `C57_depleted`, `C57_mixed_event`, `C58_buffer_partial`, `C58_refuted`, `C59_round_trip`, `C59_long_section`, `C60_inert_lines_partial`, `C60_refuted`, `C61_any_case_partial`, `C61_refuted`, `C62_first_error_partial`, `C62_bad_lines_skipped`, `C62_refuted`, `C63_short_lines_partial`, `C63_refuted`, `C64_spaced_partial`, `C64_refuted`, `C64_upper_refuted`, `C64_default_ignored`, `C65_three`, `C65_any_number`, `C65_from_file`, `C66_accepts_iff`, `C66_rejected`, `C66_starts_iff`, `C67_sources_partial`, `C67_histograms_partial`, `C67_refuted`, `C68_selection`, `C68_from_file`, `C69_runs_iff`, `C69_error_code_partial`, `C69_refuted`, `C70_destroy_iff`, `C70_beamOn_iff`, `C70_partial`, `C70_refuted`, `C71_names_iff`, `C71_names_partial`, `C71_refuted`, `C71_runs_partial`, `C71_misspelt_refuted`, `C72_starts_iff_partial`, `C72_unchanged`, `C72_step_real`, `C72_refuted`, `C73_content`, `C73_shape_partial`, `C73_zero_threads`, `C73_refuted`, `C74_round_trip`, `C74_relations`, `C74_velocity`, `C74_force`, `C74_schwinger`, `C74_pi`, `C74_position`, `C74_energy`, `C75_valid`, `C75_valid_ieee`, `C76_fired`, `C76_safe`, `C76_complete`, `C77_calls_partial`, `C77_refuted`, `C78_plane_partial`, `C78_pulses_refuted`, `C78_refuted`, `C79_parameters`, `C80_histogram_refuted`, `C80_tracks_refuted`, `C81_leak_partial`, `C81_refuted`, `C82_definition_partial`, `C82_total_energy`, `C82_exact_partial`, `C82_refuted`, `C83_field_free`, `C83_refuted`, `C83_direction_partial`, `C83_ends`, `C84_once_iff_partial`, `C85_refuted`, `C85_copies`, `C85_energy_iff_partial`, `C85_count_partial`, `C85_out_of_range`, `C86_emission`, `C86_pairs`, `C86_emission_safe`, `C86_pairs_safe`, `C87_eta`, `C87_row`, `C87_span_iff_partial`, `C87_refuted`, `C87_loaded`, `C88_missing_file_partial`, `C88_unset_refuted`, `C88_short_refuted`, `C88_unwritten_refuted`, `C89_emission`, `C89_pairs`, `C90_plain_partial`, `C90_negative_refuted`, `C90_leading_zero_refuted`, `C90_exponent_refuted`, `C91_loop`, `C91_source`, `C91_sources`, `C91_gaussian_energy`, `C91_histogram`, `C92_field_partial`, `C92_gamma_refuted`, `C93_refuted`, `C93_normal_end_partial`, `C94_undefined_iff_partial`, `C94_refuted`, `C95_ends_partial`, `C95_refuted`, `C95_photons_partial`, `C96_near_partial`, `C96_exact_partial`, `C96_ends_partial`, `C96_stuck_refuted`, `C96_extra_step_refuted`, `C96_program_partial`, `C97_counts`, `C97_exact`, `C97_nearest`, `C97_one_bin`, `C97_ranks`, `C97_refuted`, `C98_emission`, `C98_pairs`, `C98_loaded`, `C98_good`, `C98_program`, `C99_share_partial`, `C99_negative_refuted`, `C99_exit_refuted`, `C99_energy_refuted`, `C100_energy`, `C101_pairs_partial`, `C101_pairs_between`, `C101_emission_partial`, `C101_emission_between`, `C101_last_refuted`, `C101_shipped_emission_partial`, `C101_shipped_partial`, `C102_push_eta`, `C102_eta_partial`, `C102_chi_partial`, `C102_frames_eta_partial`, `C102_frames_chi_partial`, `C102_rest_refuted`, `C103_lorentz`, `C103_reaction`, `C103_step`, `C103_pushes`, `C103_cubic`, `C104_converges`, `C104_limit`, `C104_static`, `C104_plane`, `C105_emission`, `C105_emission_step`, `C105_emission_undisturbed`, `C105_conversion`, `C105_conversion_step`, `C105_static`, `C106_bounds_partial`, `C106_no_overlap_partial`, `C106_iff_partial`, `C106_race_iff`, `C106_refuted`, `C107_range_partial`, `C107_iff_partial`, `C107_copies_refuted`, `C107_refuted`, `C108_event`, `C108_event_only`, `C108_abort`, `C108_scalars`, `C108_orthogonal`, `C108_static`, `C108_plane`, `C108_polarisation_is_no_turn`, `C109_event_partial`, `C109_abort_partial`, `C109_image`, `C109_pairs_partial`, `C109_refuted`, `C110_run`, `C110_abort`, `C110_event`, `C110_end_times`, `C111_split_partial`, `C111_merge_partial`, `C111_no_processes`, `C111_refuted`, `C112_work_partial`, `C112_magnetic_partial`, `C112_static_partial`, `C112_parallel`, `C112_refuted`, `C112_fourth_partial`, `C113_law`, `C113_moments`, `C113_total`, `C113_nan_iff`, `C114_law`, `C114_iff_partial`, `C114_refuted`, `C115_models_partial`, `C115_refuted`, `C115_complete_partial`, `C116_refuted`, `C116_leak`, `C116_calls_partial`, `C117_refuted`, `C117_direction_partial`, `C118_mean`, `C118_law`, `C118_total`, `C118_none`, `C118_next`, `C118_state`, `C118_measure`, `C119_static_scale`, `C119_static_iff`, `C119_static_refuted`, `C119_plane_partial`, `C119_gauss_scale`, `C119_gauss_refuted`, `C119_position`, `C120_static`, `C120_plane_iff`, `C120_plane_partial`, `C120_plane_refuted`, `C120_gauss_refuted`, `C120_focusing_refuted`, `C121_lorentz`, `C121_landau`, `C121_modified`, `C121_static`, `C121_plane`, `C121_gauss_partial`, `C121_gauss_focus_partial`, `C121_focusing_partial`, `C121_gauss`, `C121_focusing_focus_partial`, `C121_cut_refuted`, `C122_read`, `C122_setup`, `C122_steps`, `C122_histograms`, `C122_collision`, `C122_beam`, `C122_refuted`, `C123_undefined_iff_partial`, `C123_ends_partial`, `C123_refuted`, `C123_exit_refuted`, `C124_setup`, `C124_steps`, `C124_collision`, `C124_refuted`, `C124_runs_partial`, `C124_beam`, `C124_motion`, `C124_completes_partial`, `C124_finals`, `C124_arrays`, `C124_race_refuted`, `C124_shipped_partial`, `C125_path`, `C125_law`, `C125_mean_partial`, `C125_unbiased_partial`, `C125_number_partial`, `C125_capacity_refuted`, `C125_tables_iff`, `C126_lorentz`, `C126_reaction_partial`, `C126_bound_partial`, `C126_eta`, `C126_refuted`, `C127_emission_refuted`, `C127_emission_partial`, `C127_conversion_refuted`, `C127_event_partial`, `C128_union_partial`, `C128_refuted`, `C129_python_displaced`, `C129_python_partial`, `C129_file_displaced`, `C129_refuted`, `C130_bunch`, `C130_asked_iff`, `C130_along_z_partial`, `C130_refuted`, `C130_turn`, `C130_backwards`, `C131_velocity_partial`, `C131_push_partial`, `C131_pushes_partial`, `C131_overtakes`, `C131_refuted`, `C131_beta_partial`, `C131_beta_refuted`, `C132_joined_partial`, `C132_refuted`, `C133_emission`, `C133_conversion`, `C133_shipped`, `C134_same`, `C135_range_partial`, `C135_law_partial`, `C135_from_zero_partial`, `C135_refuted`, `C136_error_partial`, `C136_moment_partial`, `C136_lost`, `C136_refuted`, `C137_events_partial`, `C137_program_partial`, `C137_name_refuted`, `C137_fraction_refuted`, `C138_wave`, `C138_plane_partial`, `C138_refuted`, `C139_energy_partial`, `C139_refuted`, `C140_tracks_partial`, `C140_emission_partial`, `C140_conversion_partial`, `C140_refuted`, `C141_event`, `C141_event_only`, `C141_abort`, `C141_scalars`, `C141_fields`, `C141_symmetric`, `C141_plane`, `C141_exchange_not_exact`, `C142_others_partial`, `C142_tracking`, `C142_tracking_abort`, `C142_histograms`, `C142_histograms_partial`, `C142_histograms_refuted`, `C142_saving`, `C142_tables`, `C142_setup`, `C142_others_refuted`, `C142_program_refuted`, `C143_photon`, `C143_lepton`, `C143_reaction`, `C143_far`, `C143_tiny`, `C143_huge`, `C144_run`, `C144_gamma`, `C144_static`, `C144_plane`, `C144_true`, `C145_carried_partial`, `C145_reaction`, `C145_balance_iff`, `C145_classical_refuted`, `C145_semiclassical_refuted`, `C146_iff_partial`, `C146_hidden_refuted`, `C146_rejected`, `C146_refuted`, `C146_units_refuted`, `C147_quantum_tables`, `C147_classical_tables`, `C147_spectrum`, `C147_capacity_refuted`, `C148_state`, `C148_law`, `C148_tables`, `C148_limit`, `C148_some`, `C149_state`, `C149_law`, `C149_tables`, `C149_limit`, `C149_some`, `C150_depends_partial`, `C150_line_refuted`, `C150_name_refuted`, `C150_number_refuted`, `C150_count_refuted`, `C150_switch_refuted`, `C151_moving_partial`, `C151_reaction_refuted`, `C151_silent_refuted`, `C152_inside_partial`, `C152_depth_refuted`, `C152_never_refuted`, `C152_refuted`, `C152_gauss_refuted`, `C152_focusing_refuted`, `C153_stochastic`, `C153_continuous`, `C153_focusing`, `C153_event`, `C153_draws`, `C153_gauss`, `C154_law`, `C154_partial`, `C154_refuted`, `C154_number`, `C154_number_refuted`, `C154_list_refuted`, `C155_partial`, `C155_refuted`, `C155_likelihood_refuted`, `C155_rare_partial`, `C156_independent`, `C156_product`, `C156_alike`, `C156_repeated`, `C157_fraction`, `C157_mean`, `C158_arrangement`, `C159_refuted`, `C159_place_refuted`, `C159_near_partial`, `C160_emission`, `C160_pairs`, `C160_shipped`, `C160_others`, `C161_events`, `C161_sources`, `C161_run`, `C162_law_partial`, `C162_continuous_partial`, `C162_refuted`, `C163_weak`, `C163_strong`, `C163_motion`, `C164_announced_partial`, `C164_announced_refuted`, `C164_progress_partial`, `C164_negative_refuted`, `C164_schedule_refuted`, `C164_sources_refuted`, `C164_double_partial`, `C164_shown_partial`, `C164_shown_refuted`, `C165_apart_partial`, `C165_refuted`
* Quot.sound, propext (22 theorems): `C13_bounded_sequence`, `C13_append_only`, `C14_push_records`, `C15_push_entry_partial`, `C51_counts`, `C52_table_partial`, `C57_coherent_call`, `C58_index_partial`, `C62_meaning`, `C62_unterminated`, `C75_request`, `C84_outside`, `C84_two_steps_partial`, `C84_refuted`, `C91_histograms`, `C92_track_partial`, `C92_history`, `C92_histogram`, `C92_properties`, `C92_tracks_kept`, `C107_race_iff`, `C135_many`
* no axioms (4 theorems): `C11_setSeed_no_effect_refuted`, `C11_determined_by_generator_partial`, `C11_c_library_partial`, `C22_static`
* propext (4 theorems): `C11_refuted`, `C61_request`, `C132_white_space`, `C142_same`
* Quot.sound (1 theorems): `C135_order`
<!-- end of axioms -->
