# Formal model of scrtdd in Lean 4: design

Source modelled: `/repo` (scrtdd at the pinned commit), read as text, never built or run.
The model is Lean 4.33.0 + Mathlib. Layout under `lean/Verif/`:

* `Model/*.lean`  – executable (or real-valued, noncomputable) definitions, one per C++ function, each with a
  comment citing file and lines and saying what is simplified.
* `Spec/*.lean`   – small, model-independent vocabulary used to state the properties (kept short, no proofs needed to read).
* `Proofs/*.lean` – helper lemmas.
* `Props/*.lean`  – the property theorems named in MANIFEST.json, with a concrete non-vacuity `example` beside each.

## Trusted base

* Lean's kernel. No axioms are added; `#print axioms` of every property theorem gives a subset of
  `propext`, `Classical.choice`, `Quot.sound` (checked by `Verif/Axioms.lean`, whose output is part of the build log).
* The hand translation of C++ into Lean (the citing comments make it reviewable).
* General simplifications, valid everywhere unless a definition says otherwise:
  - IEEE doubles are modelled by ℚ or ℝ (exact arithmetic): rounding, overflow to infinity and signed zeros are not modelled, except that C121 and C122 round every operation on times and sample indices as doubles do, and that C119 and C120 have infinities and NaN.
    NaN/"not set" is modelled by `Option` or `none` where the code tests for it.
  - `std::unordered_map`/`unordered_multimap` are modelled by key-unique association lists (or functions) with an *arbitrary* order:
    theorems quantify over the order, so they hold for whatever order the C++ library picks.
  - `unsigned` is `Nat` unless a property is about wrap-around, in which case the 2^32/2^64 arithmetic is explicit.
  - C++ undefined behaviour and exceptions are distinct outcomes (`Except`/`Option` constructors), never a junk value.
  - Memory allocation never fails; logging has no effect; a single thread runs the code (as in the application).
* External code is a parameter with stated assumptions: libc `timegm`/`gmtime` (proleptic Gregorian calendar),
  SeisComP data model and RecordStream, file system (a map from names to contents), travel-time tables, digital filters.

Modelled, by file (`libs/hdd` unless another directory is given):

| file | modelled | not modelled |
|---|---|---|
| `catalog.cpp`, `csvreader.cpp`, `utctime.cpp`, `utils.*`, `index.h`, `lrucache.h`, `timewindow.h` | containers, catalog and CSV files, times, distances, azimuths, statistics | the locale |
| `clustering.cpp`, `ellipsoid.h`, `kdtree.h` | neighbour selection, ellipsoids, clusters, pair files, spatial searches | – |
| `dd.cpp` | both relocations with their iterations, correlation of picks, preloading, the waveform access with its caches, dumping waveforms, the double-difference files, the summary of the correlations, the counters of waveforms of a preload and of a single event, the log files | the counters of catalog waveforms of a relocation |
| `solver.cpp`, `3rd-party/lsqr-lsmr` | the system, weights, scaling, the summary by distance; LSQR and LSMR over ℝ | rounding, standard errors |
| `waveform.cpp`, `trace.h`, `xcorr.cpp`, `xcorrcache.*` | windows, components, rotation, resampling, correlation, the chain of loaders and caches, the disk cache | digital filters (a parameter), the format of the waveform files (a round-trip is assumed) |
| `ttt/*`, `nll/*`, `3rd-party/gmt` | homogeneous and grid tables, headers, projections, interpolation, the cache of open files | TRANS_MERC off the central meridian |
| `apps/scrtdd/rtddtool.cpp` | origins, the queue, profiles, all parameters, regions, messages, command line modes | the text of reports and logs |
| `libs/hddsc/*`, `plugins/ttt/nll` | tables, reading records into traces, conversion of catalogs from and to SeisComP objects | SeisComP itself |
| `log.cpp`, `log.h` | messages, levels, log files, loggers | the time in a line, write errors, threads |
| `random.h` | as a function of the seed (C114) | the generator |
| `apps/sclistorg` | the options, the choice of the origins, the text | SeisComP itself |
| `msg.cpp`, `scripts` | – | all of it |

## Properties: what is modelled and how it is proved

| Id | Modelled | Proof |
|----|----------|-------|
| C01, C02 | `lru_cache` as (list, map) state machine; the spec is a fold over the history computing the N most recent distinct keys | refinement by induction over histories; callback trace is part of the state |
| C03, C04 | `XCorrCache` nested map flattened to a map on (e1,e2,sta,phase) | invariant "at most one direction stored" + simulation of a last-write map on unordered pairs, induction over histories. The self pair (a,a) is a proved exception |
| C05 | `GenericTimeWindow` on integers (microseconds) | case analysis; set semantics `{t | start ≤ t ≤ end}` as spec |
| C06 | `GenericTrace` over ℚ frequencies with integer microsecond times, `secToDur` rounding explicit | floor/ceil arithmetic |
| C07, C08 | `UTCClock` on integer microseconds, calendar = days-from-civil arithmetic proved inverse; strings as character lists | arithmetic (`omega`) and digit lemmas. Negation proved for times before 1970 with fractional second |
| C09, C10 | `readRow` state machine; `format` | induction over characters with an explicit writer as spec. Empty stream is an explicit UB outcome |
| C11–C14 | `Catalog` state machine | invariants by induction over operations, frame lemmas; unsigned wrap of the new id explicit |
| C15 | `IdToIndex` | invariant over histories |
| C16–C18 | `DDSystem`, `Adapter` products over ℝ as loops | loops to finite sums, `Finset` algebra |
| C19–C22 | `Solver` maps, `prepareDDSystem`, weights, `loadSolutions` | invariants, list lemmas; key composition injectivity (with a proved collision witness) |
| C23–C26 | `KDTree` as inductive tree with abstract axis order and distance | structural induction; priority queue loop invariant with fuel-free well-founded recursion |
| C27 | haversine distance over ℝ | counterexample proved for the longitude axis at high latitude; admissible for latitude and depth axis |
| C28–C31 | `selectNeighbouringEvents(Catalog)` with abstract distances | invariants over the selection loop; fixpoint and termination by size of the surviving set |
| C30 | same | negation with concrete catalog; the property that does hold is `_partial` |
| C32, C33 | `clusterizeNeighbouringEvents` work-list traversal | graph reachability invariants |
| C34 | ellipsoid layers and quadrants over ℝ | algebra; partition of the outermost ellipsoid |
| C35, C36 | `crossCorrelation` and `DD::xcorr` over ℝ, arrays as bounded reads | loop invariant for running sums, Cauchy–Schwarz |
| C37–C40 | loader/processor state machines over abstract sources | induction over request histories; non-transparency witness where keys omit parameters |
| C41 | component rotation | algebra; start-time mismatch witness |
| C42, C43 | grid addressing and interpolation | arithmetic, convexity |
| C44, C45 | the six grid transforms, rotation, fmod normalisation over ℝ | algebra and trigonometric identities; the iteration of the inverse Lambert projection is a monotone contraction whose fixed point is the latitude (mean value theorem); the transverse Mercator series only on the central meridian, against the integral of the radius of curvature (remainders of the series bounded as polynomials in the third flattening) |
| C46 | NLLGrid handle state machine on top of the LRU model | invariant; witnesses for capacity 0 and `closeOpenFiles` |
| C84 | the same state machine: keys given up, descriptors | monotone invariants over histories; witness for a failed mapping |
| C85 | the header as text: words, the three kinds of line, the transform line with its checks | equivalence with a declarative description of the header by analysis of the reading loop; witnesses for repeated transform lines |
| C86 | the constructors of the grids and the search of a directory, file names against regular expressions | the lists as filters of the listing, by induction |
| C47–C50 | `DD::relocate` loop with the solver and travel-time table as arbitrary oracles | induction over iterations |
| C51, C52 | RTDD scheduler state machine (processes, queue, clock) | counterexample for C51 (queued jobs are dropped at the next wake-up) and exact characterisation; invariants for C52 |
| C53 | profile selection and rectangular region | arithmetic modulo 360 |
| C54 | gap computation | lists, sorted order |
| C55 | `loadTraces` splitting loop | termination by multiset size, coverage invariant |
| C56 | medians and summaries as order statistics | list/sort lemmas |
| C57, C58 | `Dnrm2`, `D2Norm`, the whole LSQR and LSMR iterations, over numbers without laws (termination) and over ℝ (the rest) | loop invariants: the Golub–Kahan recurrences, the QR factorisation of the bidiagonal matrix as a chain of vector identities, orthogonality by induction |
| C59 | pair file rows | round trip at row level |
| C60, C61 | cross-correlation cache building, observation construction | induction over pairs, algebra |
| C62, C63 | distance, azimuth and destination formulas over ℝ | spherical trigonometry through unit vectors |
| C64 | `selectNeighbouringEventsCatalog` | greatest closed set of events: the discarded events lie in no closed set; taking events away never gives an event more neighbours (monotonicity of both search modes), and taking away events that are not neighbours changes nothing |
| C65 | time windows of the correlation, the two directions of a pair | arithmetic; case analysis on which pick is trusted |
| C66 | `resample`, `BasicProcessor` | list and floor arithmetic; linearity of a sum |
| C67 | angle grids: bit fields, interpolation by sine and cosine | half-plane argument; byte arithmetic |
| C68, C69 | homogeneous medium, velocity units, derivatives of grids | calculus: the derivative of the travel time with respect to depth and distance |
| C70 | calls of `addObservationParams` to the solver | induction over the observations |
| C71, C72 | one iteration, the final catalog, the combination of clusters | frame lemmas over the fold on the cluster |
| C73 | `Solver::_solve`: adapter, normalisation, LSQR/LSMR, denormalisation | composition of C16–C18, C57, C58 |
| C74, C75 | the texts of `%.nf`, `%g` and `stod` over ℚ with infinities and NaN; the rows of the cross-correlation and catalog files | digit lemmas, composition with C07 and C09–C10 |
| C87 | the readers of the catalog files on any text; the declarative grammar of numbers, ids and rows is `Spec/Number.lean` and `Spec/CatalogText.lean` | equivalence of the readers and the grammar, cell by cell and row by row |
| C88 | the components of a pick, the request to the processor, the loops collecting the requests, the batch download and the correlations made from it | the requests of the loops as a set, by induction; congruence of the correlation loop in the loads it makes |
| C76, C77 | the SeisComP adapter: picks, arrivals, origins, inventory and data source as records and lookup functions; pointers may be uninitialised | induction over arrivals, origins and phases |
| C78, C79 | the edits and searches of `Catalog` and `Neighbours` | frame conditions for each call; induction over call histories |
| C80 | `Model/Daemon.lean`: the application from an arriving object to the published origin, on top of the scheduler; the database, cache, inventory, messaging and the result of loading a profile are a `World` that may differ at every moment | decision logic of one job; then induction over all histories, with refinement to the scheduler of C51/C52 |
| C89 | `Model/Messages.lean`: what `handleMessage` and `updateObject` do with the objects and requests of a message, on top of C80; the order of the objects in the set is arbitrary | a session is a history of C80 by induction over the messages, with the objects added characterised |
| C90 | `Model/CommandLine.lean`: splitting of lists, and the loops of `run` over given origins, on top of C80 | the run is a history of C80 with one start per origin; induction over the origins |
| C91 | the loop of `run` that merges catalogs, on top of the catalog (C13) and its files (C87) | induction over the catalogs; new ids are above all old ones |
| C92 | `getCatalog`, the conversion of every event of the relocated catalog, and the ways the command fails; the relocation itself is a parameter | one event by C12 and C77, induction over the events; the sources by C76 |
| C93 | the order of the options in `run` and the conditions of `validateParameters` | decision logic stated outright against the list of commands |
| C94 | `Model/Access.lean` and `Model/XCorr.lean`: the components tried, the waveforms asked for, the two directions | iff with the relational specification in `Spec/Correlation.lean`; induction over the components; bounds by C36 |
| C95 | `Model/Preload.lean`: the two passes over the picks of each event, with the models of the batch loader, the disk cache and the longer windows | induction over loads and events: requests are what `Wanted` says and the cache does not have; readable files only grow; file names tell waveforms apart (C38) |
| C96, C97 | `Model/Tables.lean`: the text of the settings, the configuration, the plugin and the adapter; what the grids answer is a parameter | both directions by cases; parts of a text by induction; numbers by C87 |
| C98 | `Model/SingleEvent.lean`: the whole call `DD::relocateSingleEvent`, composed of the classification of the picks, the selection of neighbours and the relocation | simulation of the searches (nearest, ellipsoids) under a change of the number; also used to state C50 for the whole call |
| C99 | `Model/ClusterFiles.lean`: `findClusters`, the loop of `--dump-clusters`, the reading of comma separated pair files, and the whole of `--reloc-catalog` from clusters to result | the files of different clusters have different names and each is read back (C59); clusters that are alike give the same correlations, system and result, proved through all iterations; a cluster shares no pair with another one, so its correlations do not depend on the others |
| C100 | composition of the multi-event relocation (C60, C72) with the result file (C74) | every pair wanted by the first run has a result in the file, and the second run correlates only pairs without one |
| C101 | `Model/RealSolver.lean` puts the preparation of the system, LSQR or LSMR, and the reading of the solution together into the solver that `relocate` calls; everything else is modelled before | every lookup succeeds: the pairs selected have picks of both events (C28), picks keep station and type through all iterations, all observations have parameters (C61), all indices are in range (C63), the solvers end (C66); induction over iterations and clusters |
| C102 | what is to be minimised is specified over the calls made to the solver (`Spec/Iteration.lean`: observations, parameters, weights, changes of events), without rows, columns or indices; the program is the model of C101 | rows and columns of the prepared system are summed up into that objective (the columns of an event are its four components), the optimality of LSQR and LSMR (C58) carries over; the changes of events without weighted observations are shown to play no role |
| C103 | LSQR and LSMR of C58 with the settings of `Solver::_solve` | bounds of the quantities the condition estimates are made of, as invariants of the iterations: with B the damped matrix, `‖B w‖ = rho` gives `dnorm² ≤ itn / damp²` (LSQR), `cbar ‖h‖ = 1` gives `damp ≤ rhotemp, rhobar ≤ √(‖A‖² + damp²)` (LSMR) |
| C104 | `Model/WaveformAccess.lean`: the chain of loaders and processors of a relocation object as a state, the public calls and the uses of waveforms as steps; filling uses the model of C95, the caches those of C37, C38, C40 | invariant over the calls: the chain is the one the settings ask for, the files contain what the data centre has, the memory cache knows direct answers only; the processing of a waveform is repeated for loaders with a state and reduced to the one of C37 |
| C105 | `Model/Configuration.lean`: the loop of `validateParameters` over the profiles, group by group; the SeisComP getters are parameters | `Spec/Configuration.lean` transcribes scrtdd.xml as a table of names, defaults and options; the loop by induction; the names of parameters by suffixes |
| C106 | `Model/DumpWaveforms.lean`: the loop of `dumpWaveforms` over events, picks and components with the loader chain of C104, the files in the directory as a map | invariant over the components done so far, on top of the lemmas of C104; the file names are split at the dots |
| C107 | `Model/RealSolver.lean`, `Model/Relocate.lean` with the iteration orders and the effect of `nth_element` as parameters; two runs with different orders are compared | the prepared systems are the same up to a permutation of rows and of event numbers, under which LSQR and LSMR make the same moves; the calls of an iteration in which nothing is restored are characterised as a set; two runs are related by induction over the iterations |
| C108 | `Model/DDFile.lean`: `getDoubleDifferences` with all columns, the writer, and which iteration each file is taken from; on top of the solver (C20) and of the relocation log (C47) | the entries of the solver are those of the distinct observations by the invariant of C20; the table is read back by C09; the stations and positions of an iteration by induction over the cluster |
| C109 | `Model/DistanceReport.lean`: the distances, the sorting by distance, the groups and the lines; on top of the prepared system (C20) and `fiveNumberSummary` (C56) | the groups are chunks of the sorted list (induction); the residual of an observation is the row of the system by C20; the summaries by C56 |
| C110 | `Model/XCorrReport.lean`: the counters by station and what is printed of them | invariant over the pairs visited: the table of a station is the tally of its outcomes, and the sums are the tally of all; counts are stated as lengths of duplicate-free enumerations |
| C111 | `Model/Selection.lean` run twice, with permuted catalogs, other indices, queues and visiting orders | simulation: the two runs offer the same events, each offer adds the same phases up to order; the result for a whole catalog is characterised as a fixed point that no order can miss, so both runs keep the same events |
| C112 | `Model/PreloadReport.lean`: the two passes of C95 with the counters of the loaders | induction over loads and events: projection to the run of C95, the batch counters sum up the answers, the counter of the disk cache is bounded below by twice the readable files, above by twice the loads, and exact when no file is needed twice |
| C113 | `Model/Log.lean`: the globals of the log with the calls as steps; relocations as the messages before and after opening their files and how they end; what the files should have is `Spec/Log.lean` | snoc induction over calls for which files are open, the level and the receiver; induction over messages, clusters and relocations |
| C114 | `Model/WorkingDir.lean`: the name, the search over readings of the clock, relocations in sequence, and processes as interleaved steps (look, create, finish); the number drawn is a function of the seed | injectivity of the digits of a date (C07), pigeonhole over seconds, invariant over schedules |
| C115 | `Model/GridTable.lean`: both forms of `compute` over the cache of `Model/NllGrid.lean`, with the values read as in `Model/Grid.lean` and `Model/TravelTime.lean`; requests as steps with the answers of the operating system | invariant over histories (what is cached is the grid of its key, handles are closed or on the file of their grid), then the answer is that of the file; composed with C42 and C43 |
| C116 | `Model/ProfileLife.lean`: loading (with the tables of `Model/Tables.lean` and the catalogs of `Model/CatalogFile.lean` and `Model/SeisComP.lean`), unloading and the tasks as steps; the three commands with a catalog and the one that fills the cache; the path of the cache | invariant over histories (flag and object agree), the object is that of the first successful loading since the last unloading; refinement to the loading of `Model/Daemon.lean` |
| C117 | `Model/Relocate.lean`, `Model/RelocateTop.lean`, `Model/SingleEvent.lean`, `Model/XCorrBuild.lean`, `Model/Selection.lean` as they are; `Spec/TimeShift.lean` moves a catalog in time | every step commutes with moving the catalog in time, by induction over the loops |
| C118 | `Model/Relocate.lean`, `Model/Solver.lean`, `Model/LeastSquares.lean` as they are; `Spec/FittedData.lean` says when picks fit | the right-hand side of the system is zero, both solvers then stop at once with zero, and the events are carried over unchanged, by induction over the iterations; with residual weights the negation is proved |
| C119 | `Model/FloatSolve.lean`: the adapter, LSQR and LSMR and `loadSolutions` for any arithmetic with operations and no laws, and for numbers, infinities and NaN; `Spec/FloatSolve.lean` says what a NaN is, `Spec/FloatIteration.lean` completes the answers that `Model/RealSolver.lean` leaves open | a NaN spreads through the norms, the search directions and the solution by induction over the iterations; the undefined cases are then exactly those excluded by `Regular` in C102 |
| C120 | the same, compared with the model over the reals | the two computations are shown equal step by step, under the invariant that no denominator is zero (a zero direction ends the search) |
| C121 | `Model/FloatTime.lean`: the conversions with the rounding of every operation, as a function `fl`; `Spec/Double.lean` says what is assumed of it; `Model/Double.lean` is the rounding of IEEE doubles, shown to meet it (`round64_doubles`) | error bounds of the operations; the limit 2^32 s is exact, with a counterexample just beyond it |
| C122 | `GenericTrace::slice` with the rounding of every operation, on the same footing | the computed indices are within a bound of the exact ones, so floor and ceiling are off only at sample times; counterexamples are computed with the rounding of IEEE doubles |
| C123 | the correlation of C36 and C94; `Spec/LagShift.lean` says what a waveform cut to a window is, what is compared, and the shift in time relative to the picks | the alignment found by `xcorr` in terms of the start times and lengths of the waveforms, which the cutting ties to the windows; linear arithmetic |
| C124 | `buildXCorrCache`, the correlation of two picks, the cache and `addObservations` as modelled for C60, C94, C01 and C61; nothing new | C61 (which observation), C60 (where a cached result comes from, either direction), C94 (a valid result is a match of recorded waveforms) and C123 (the lag is a shift in time) composed; the coefficient is symmetric and the bias antisymmetric, so that a result stored for the opposite direction gives the same statement |
| C125 | `crossCorrelation` and `xcorr` as modelled for C35 and C36; nothing new | the coefficient is bilinear, so that a gain comes out as its sign; the case of equality in the Cauchy–Schwarz inequality; the first lag with the largest coefficient (C35) is the same for the amplified waveforms; composed with C123 for picks |
| C126 | `Model/FloatXCorr.lean`: `crossCorrelation` with every operation rounded (`fl`, and `sq` for the square root), quotients and roots that are infinite or NaN kept as such; `Spec/FloatXCorr.lean` says what is assumed of the waveforms; `sqrt64` is the square root rounded to 53 bits. Not modelled: overflow, fused operations, wider registers, the sign of zero, the warnings about floating point exceptions | error bounds by induction over the three loops: each update of a sum adds at most 4 (7 for products) units of the largest sum; then the differences, roots and the quotient; the last sentence is false of the code, with a witness in IEEE doubles |
| C127 | the models of C24 and C44 over the real numbers (`Model/Geo.lean`, the k-d tree, `selectNeighbours`); `Spec/DateLine.lean` says what turning is. Not modelled here: rounding, stations in the searches | sines and cosines of half the difference of longitudes change at most in sign; the searches by the theorem of C24 when no longitude differs from that of the centre by more than 180 degrees; otherwise false of the code, with witnesses on both sides of the date line, for every nth_element |
| C128 | `Model/ListOrg.lean`: `init`, `run`, `findOrigin` of `sclistorg.py` with the database, `float`, `_parseTime` and `lower` as parameters; a comparison with a missing value is an exception, which ends the listing. `Spec/ListOrg.lean` says which origin is asked for. Not modelled: objects of a wrong type, `nan` as limit of the area, logging | invariant of the loop over the origins (the best candidate so far, the last among equals), then induction over the events; uniqueness of the answer; several parts are false of the code, with witnesses |
| C129 | the text written by `run` (no quoting) and the reader of C09, C10 and C76 | the first field of a row ends at the first comma, whatever follows; false for the simple list |
| C130 | the selection of C28, C29 and C111 with the index that `createEventTree` builds from the catalog, and from the catalog with some events left out; `Spec/Trim.lean` says which events are of no use | entries that offer nothing are dropped from the delivery of the nearest events and from the round robin (each pass, then all passes, although the passes end at different times); for the whole catalog both results are the greatest set of events with enough neighbours (C64) |
| C131 | the whole single-event relocation of C50 with two backgrounds, two indices and two selections; `Spec/SingleOrder.lean` says when two iterations and two results are the same | every step of the relocation maps catalogs with the same content to catalogs with the same content, and makes the same calls because the pairs of an event are sorted; what is copied from the background depends on the set of neighbours only; the selections agree by C111 and C130; the correlations by C124 |
| C132 | the whole multi-event run of C51 with two catalogs and two lists of clusters; `Spec/PartRun.lean` says when catalogs, results and correlations agree on a part, and when the clusters are split | a relocation commutes with the restriction of the catalog to the part; what the clusters of the rest add to the results and to the correlations concerns no event or pair of the part; induction over the clusters. That the clusters are split follows from C32 and C33 |
| C133 | `Model/AppConfig.lean`: the parameters that are not of a profile, the file with the defaults, `validateParameters` as a whole; how a text becomes a value is a parameter. `Spec/AppConfig.lean` is a transcription of the documented parameters | inversion of the sequence of reads, each of which may throw; C105 for the profiles, C80 for what is accepted; false of one default |
| C134 | the relocation of C47 to C50, C61, C72 and the solver of C101; `Spec/Turn.lean` has the map of places, what it does to catalogs, to the calls of the solver and to results, and the turning of the globe | the map commutes with every step (equality of outcomes, failures included), by induction over the loops; the calls of the solver are mapped, and what it answers is shown not to depend on the places. The selection of neighbours is left out: C127 shows that it does depend on the longitude |
| C135 | the relocation of C47 to C49, C61, C72, the cache of C03, C04 and the solver of C101; `Spec/Renumber.lean` has the renumbering of catalogs, clusters, correlation results, calls of the solver, answers and results | renumbering commutes with every step (equality of outcomes, failures included), by induction over the loops; two solvers told the same under different numbers give their events and observations the same indices (the keys of observations are injective), by induction over the calls; for any two numberings with the same order both are shown to be numberings of the positions by a strictly increasing function; the index of events is the same tree over the same points, so the searches deliver the same points in the same order, and the selection and the search of clusters (C28 to C33) commute with the renumbering if the hash maps are visited in the corresponding order, which exists; for single-event relocation (C50) the numbering is extended to the next free number, which the event gets |
| C136 | the relocation of C47 to C49, C61, C72, the solver of C101 and LSMR of C58; `Spec/WeightFactor.lean` has the catalog and the calls of the solver with other weights | multiplying the weights multiplies the norms of the columns, so that the scaled matrix is the same and the right side is multiplied; every variable of LSMR is then either unchanged or multiplied, and so is every step, by induction over the steps; the rest of the relocation commutes with the multiplication, by induction over the loops; the selection of neighbours (C64) never looks at a weight, so that single-event relocation as a whole commutes too. Not claimed for LSQR, whose stopping rule adds the constant 1e-30 (lsqr.cpp:556), nor without normalisation, where the damping factor is compared with the weights; over real numbers |
| C137 | the system of C73, LSQR and LSMR of C58 | every variable of LSMR is unchanged, multiplied, or multiplied by the square of the factor, by induction over the steps; for the other sign the vectors change sign and no number does, because the products are odd. Not claimed for LSQR and other factors, because its stopping rule adds the constant 1e-30 (lsqr.cpp:556); over real numbers |
| C81 | loading, unloading and freeing of profiles in the same model | induction over all histories |
| C82 | the two steps, with the content of moved-from catalogs as a parameter | decision logic stated outright |
| C83 | the residuals and marks written by `computeEventResiduals` and `updateRelocatedEvents`, over whole relocations | exact effect of each step, induction over the iterations |

Disagreements between code and property found while proving are listed at the end of this file.

## Findings (property false of the code, proved with a witness)

Each line names the theorem (in `Props/`) that proves it. The property concerned keeps its full statement in
`properties.jsonl`; what does hold is proved under a name ending in `_partial` or with the exception as a hypothesis.

| Property | Behaviour of the code | Theorem |
|---|---|---|
| C04 | a correlation of an event with itself is erased by the very call that adds it | `xcorr_self_pair_lost` |
| C06 | slicing fails although the window is inside the trace (128 Hz: the end time is rounded up to the microsecond) | `trace_slice_fails_inside` |
| C07, C08 | times before 1970 with a fraction of a second are printed with a negative fraction; one second throws | `utc_text_not_a_time_before_epoch`, `utc_text_lost_before_epoch`, `utc_date_throws_before_epoch` |
| C07 | 31 February is accepted; a fraction with many digits is undefined behaviour, one with more than 308 digits is rejected | `utc_text_accepts_31_february`, `utc_text_long_fraction_ub`, `long_fraction` |
| C09, C10 | a character after a closing quote is dropped; an empty file with header is undefined behaviour | `csv_char_after_quote_dropped`, `csv_empty_file_ub` |
| C11 | with event id 2³²−1 present the next event overwrites event 0 | `catalog_addEvent_wraps` |
| C13 | phases of no event, kept by the file reader, are adopted by a later event on merging | `catalog_merge_adopts_orphan_phase` |
| C14 | an uncertainty below the first class limit gets the lowest weight | `pick_weight_best_pick_lowest` |
| C18 | an event with a zero column turns the normalised system into NaN | `normalisation_nan` |
| C19 | '@' in a phase name makes two observations collide, one is lost | `observation_lost` |
| C21 | with a median absolute deviation of zero the zero residuals get weight NaN | `residual_weight_nan`, `residual_weights_nan` |
| C24–C27 | the distance along an axis is not a lower bound of the distance, so searches can miss points or order them wrongly | `latitude_bound_false`, `longitude_bound_false`, `depth_bound_false`, `radius_search_false`, `nearest_neighbour_false`, `best_first_false` |
| C25 | the k nearest with k = 0 is undefined behaviour | `k_nearest_zero_ub` |
| C28 | a phase picked twice counts twice towards the minimum | `too_few_phases` |
| C29 | without a maximum number of neighbours the ellipsoids are ignored; an eligible event is lost | `no_limit_differs`, `eligible_event_lost` |
| C30 | the station distance limits never reject a station of the reference event (OR instead of AND) | `reference_limits_ineffective`, `reference_station_too_far` |
| C34 | the distance ranges of the layers miss events slightly below the centre: the round robin can get stuck | `layer_ranges_miss` |
| C36 | a negative maximum delay, one that does not fit in an `int` and an empty trace are undefined behaviour | `negative_delay_ub`, `huge_delay_ub`, `empty_trace_ub` |
| C37 | the memory cache key omits filter, sampling frequency and event; two transforms share a key with a channel code | `memcache_ignores_filter`, `memcache_ignores_event`, `memcache_key_collision` |
| C38 | an interrupted write poisons the disk cache for ever | `disk_cache_poisoned` |
| C39 | a delivered waveform can be unavailable; the order of the traces matters | `batch_delivered_but_unavailable`, `batch_order_matters` |
| C40 | before 1970 the load window is not aligned to full seconds | `load_window_not_aligned_before_1970` |
| C41 | rotated traces start at the time of the first horizontal trace even if another starts later; disjoint traces are undefined behaviour | `transform_rt_start_time_wrong`, `transform_l2_disjoint_ub` |
| C42 | header sizes are not validated: offsets wrap at 2⁶⁴, a read leaves the file, nodes alias; a failed load is read as zeros | `grid_read_wraps`, `grid_read_aliases`, `grid_failed_load_reads_zeros` |
| C43 | axes with one node cannot be read; a zero cell size is undefined behaviour | `grid_single_layer_unusable`, `grid_zero_cell_ub` |
| C44 | AZIMUTHAL_EQUIDIST gives the position opposite to the origin the coordinates of the origin | `azimuthal_antipode` |
| C44 | LAMBERT does not recover longitudes far from the origin (`atan` instead of `atan2`) | `lambert_far_side` |
| C44 | LAMBERT accepts opposite standard parallels, then divides by zero | `lambert_opposite_parallels` |
| C44 | the TRANS_MERC series are not inverse of each other | `transverse_mercator_inexact` |
| C45 | the grid angle conversion can return 360 | `grid_angle_full_turn` |
| C46 | a maximum of 0 open files means no maximum; `closeOpenFiles` leaves files open; a failed load is used later | `open_grids_unbounded_at_zero`, `close_open_files_leaks`, `failed_load_is_used_later` |
| C84 | a failed mapping leaves the file descriptor open until the grid is evicted; a grid that failed to load is tried again while it stays in the list | `failed_map_keeps_descriptor`, `failed_load_is_used_later` |
| C85, C86 | transform lines count like the other header lines: three of them pass for a header whose sizes are never assigned, two replace the line of the station, whose position is then used unassigned by the search | `transform_lines_only`, `station_line_missing`, `search_undefined` |
| C85 | not-a-number passes the range checks of the transforms | `nan_origin_accepted` |
| C47, C72 | an input event marked as relocated is returned without a solution, or hides its relocation in another cluster | `marked_event_returned`, `marked_event_relocation_lost` |
| C48 | one iteration uses the mean of the two parameters; the reporting iteration overshoots the end value | `single_iteration_uses_mean`, `reporting_iteration_overshoots` |
| C49 | an event that only occurs as a neighbour is not restored | `neighbour_only_event_stays_outside` |
| C51 | two objects due at the same wake-up: the second is dropped | `scheduler_loses_job` |
| C53 | the meridian one turn east of the western edge is missed | `rect_region_misses_date_line` |
| C54 | the secondary gap counts phases, not stations | `azimuthal_gap_secondary_counts_phases` |
| C56 | the five number summary of one to three values is undefined behaviour | `five_numbers_ub` |
| C59 | an event in no pair is lost in the file; an unknown station is undefined behaviour; commas are not quoted | `lonely_event_lost`, `unknown_station_ub`, `comma_cut` |
| C65 | when both directions tie the lag is not antisymmetric; an empty window is undefined behaviour | `tie_not_antisymmetric`, `empty_window_ub` |
| C66 | resampling uses the first sample twice and extends beyond the data | `resample_first_sample_twice`, `resample_beyond_end` |
| C67 | opposite azimuths at the corners interpolate to north | `azimuth_opposite_is_north` |
| C74 | six decimals are written: a coefficient just below the acceptance threshold reaches it in the file; results of an unknown station throw when written and are undefined behaviour when read | `threshold_crossed`, `unknown_station` |
| C75 | the relocation information of phases is not written when no event is marked; phases of unknown stations are written but cannot be read; commas are not quoted; a residual, weight or uncertainty below the smallest normal double (1e-310) is written but makes the catalog unreadable | `phase_information_lost`, `unknown_station_unreadable`, `comma_shifts_columns`, `tiny_residual_unreadable` |
| C87 | an empty catalog file is undefined behaviour instead of an error; an empty line at the end of a file makes it unreadable; negative and 33-bit ids are accepted as other ids | `empty_file_undefined`, `blank_line_rejected`, `negative_id_accepted`, `long_id_collides` |
| C88 | the components are looked up for every pick before any check, and there are none for a pick that is neither P nor S: an event with such a pick and enough neighbours is never relocated in single-event mode with cross-correlation | `unclassified_pick_fails`, `unclassified_pick_not_relocated` |
| C76 | the two shorter constructors of `DataSource` leave pointers uninitialised that are then read; magnitudes in event parameters are never found; an automatic arrival that is not used is kept when it has no weight; one origin without depth makes the call throw | `short_constructors_ub`, `magnitude_not_found`, `unused_arrival_kept`, `origin_without_depth_throws` |
| C77 | an event with no used phase is undefined behaviour (minimum of an empty list); two phases with the same time and channel share a pick, and the second arrival is lost | `no_used_phase_ub`, `shared_pick_loses_arrival` |
| C78 | station codes that contain dots are confused (`A`+`B.C` and `A.B`+`C`) | `dotted_codes_confused` |
| C80 | an origin without evaluation mode passes the filters as automatic, then its relocation throws and nobody catches: the application stops | `no_evaluation_mode_stops` |
| C80 | the same for an origin without depth | `no_depth_stops` |
| C80 | an origin without arrivals: the first event of a catalog without events is used (undefined behaviour) | `no_arrivals_ub` |
| C80 | without database (`--ep` with an XML inventory) `query()` is null and is used for every origin object | `no_database_ub` |
| C80 | an event that arrives again with another preferred origin, as a new message object, while its process waits: the old preferred origin is relocated, the new one is not | `old_preferred_origin` |
| C90 | a comma at the end of a list adds an empty entry, and an empty list is one empty entry | example beside `tokens_commaSeparated` |
| C92 | if any event of the relocated catalog has no used phase, for example because it has no neighbours, converting it is undefined behaviour and no XML is written | `unused_event_ub` |
| C93 | a reload request together with an option that switches messaging off uses the missing connection | `reload_request_offline_ub` |
| C96 | an empty part of the settings of native grids is not seen, so the parts move up; the number of open files is cut to 32 bits | `empty_part_lost`, `max_open_files_wraps` |
| C97 | the list of travel times asks for the names `P` and `S`: if `P` is not configured as a P phase the first arrival is S, and the relocation has no P times; outside the P grid the S travel time is not given either | `first_arrival_misses_p`, `outside_p_grid_hides_s` |
| C98 | the background event with the number of the given event is never a neighbour, and the application always gives the number 1 in the first step; the same earthquake may be relocated under another number and not under that one | `number_matters`, `origin_has_number_one` |
| C99 | if no neighbour is required, an event without neighbours is a cluster whose file has no row, so that it is lost; a pair file that does not exist is read as an empty one, which is undefined behaviour | `lonely_cluster_not_read_back`, `missing_cluster_file_undefined` |
| C101 | a pair file that names a pick one of the events does not have leads to undefined behaviour (the end of a container is dereferenced), one that names a pick that is neither P nor S to an exception from `at` | `pair_without_pick_undefined`, `pair_unclassified_throws` |
| C104 | when the cache directory cannot be created, switching the cache on throws but leaves the object saying that it is on; filling the cache then dereferences a null pointer (the daemon discards the object after such an error, other users of the library may not) | `enable_failed` |
| C104 | when the data centre throws while the cache is filled, the batch loader stays installed and all waveforms not yet in the cache are said not to exist; what was asked for meanwhile is remembered as not available, even after the cache is filled without errors | `preload_failed`, `preload_not_repaired` |
| C105 | negative whole numbers are accepted and become large: `minNumNeighbours = -1` stands for 4294967295 | `Configuration.Example.negative_wraps` |
| C105 | the type of a region is not checked: every word but `rectangular` stands for a circle | `unknown_type_is_circle` |
| C105 | a value that has not the type of its parameter is silently replaced with the default | `mistyped_is_default` |
| C105 | if only two of the three catalog files are given, the event file is taken for a file of origin ids | `two_files_are_origin_ids` |
| C106 | two picks of the same type at the same station and event share a file name, whatever their channel, if a component is configured: the later waveform overwrites the earlier | `Dump.Example.two_picks_one_file` |
| C107 | if an event has left the travel-time tables and is restored, a pair of it is observed in this iteration or not, depending on whether the other event is visited before or after it | `restored_event_order_matters` |
| C108 | if a system after the first one cannot be solved, the relocation stops and returns the events moved so far, but the file of the final double differences has only the header | `no_final_file` |
| C109 | the summary by distance that ends every `Solver::prepare` has undefined behaviour with 1 to 59 observations, whenever the last group has 1 to 3 observations, and whenever 1 to 3 of the observations of a group have a coefficient: `nth_element` is given a position before the range. In libstdc++ nothing is printed wrong, because such a call does nothing | `report_ub`, `report_exact` |
| C110 | the summary of the cross-correlations has undefined behaviour exactly when a station has 1, 2 or 3 successful correlations of P or of S phases (harmless in libstdc++, as in C109) | `xcorr_summary` |
| C110 | if no pair of P (or S) phases was correlated, the percentages of the totals are 0/0 | `nothing_attempted` |
| C111 | with a maximum number of neighbours, which of two equally distant events is used is decided by the queue of the index | `equal_distance_order_decides` |
| C111 | with a maximum number of phases, whether the P or the S pick at a station is used is decided by the order in which the hash table stores the picks: both are at the same distance | `equal_station_order_decides` |
| C112 | the number of waveforms "loaded from disk cache" reported after filling the cache is twice the number that was there (each is read once to find out what to download and once more afterwards), plus what earlier calls left in the counter | `report_cached_twice`, `reported` |
| C113 | a relocation of an event that finds too few neighbours, or any relocation that throws, leaves its log file open: the messages of all later relocations are written to it too | `single_leaves_open`, `leaks_into_next`, `multi_leaves_open` |
| C113 | a relocation of an event that saves nothing closes a log file called `relocation.log` that somebody else has opened | `single_unsaved` |
| C113 | files are not "always" written (log.cpp:132): messages with a format below the global level are missing in them, those without a format are not | `format_not_written` |
| C114 | the random number in the name of the directory is seeded with the second in the name, so it adds nothing: two processes that start in the same second can share a directory, and a second relocation in the same second spins until the next one; after February 2106 the seed is undefined behaviour | `name_is_the_second`, `shared`, `search_goes_on` |
| C115 | stations whose coordinates agree in all printed digits (six decimals) share the grid of the one asked first | `alike_stations_share` |
| C115 | with grids loaded into memory a failed read throws once, and afterwards the same request is answered from zeros: a travel time of 0 s | `failed_load_gives_zero` |
| C116 | the commands that dump clusters or waveforms or fill the cache let an exception through when the profile cannot be loaded, while the one that relocates a catalog reports the failure | `command_with_catalog`, `preload_own_catalog` |
| C116 | loading a loaded profile with another catalog silently keeps the old one (no command does this) | `loaded_again_ignored` |
| C118 | a catalog that fits the velocity model exactly is not relocated to itself when residual weights are on (the default): the median absolute deviation is zero, every weight is 0/0, the solution is not finite and `loadSolutions` drops every event and no event is returned | `fitted_data_weights_undefined`, `fitted_catalog_not_relocated`; `fitted_catalog_stays` shows that no event is ever moved |
| C121 | after February 2106 the microseconds of a time are lost when it is converted to seconds and back | `seconds_lose_microseconds` |
| C121 | if SeisComP truncated the seconds it is given instead of rounding them, times would be moved by a microsecond | `seiscomp_truncation` |
| C06, C122 | a window that ends on the last sample is refused because of rounding (100 Hz, 8 samples: 0.07 · 100 > 7) | `float_slice_refuses_last_sample` |
| C122 | a second sample before the window is kept because of rounding (100 Hz: 0.29 · 100 < 29) | `float_slice_keeps_extra` |
| C122 | the sliced trace ends a microsecond before the window (640 Hz) | `float_slice_ends_early` |
| C123 | with the default settings for S phases the lag is off by 1/150 of the difference of the travel times, because the window is not symmetric about the pick and grows with the travel time (two samples at 400 Hz for 1.5 s) | `default_s_lag_biased`, `lag_is_shift_and_bias` |
| C41, C123 | a waveform combined from horizontal components (L2) loses the last sample when the end time is rounded down to the microsecond, and then does not cover the requested window (3 Hz) | `combined_loses_last_sample` |
| C124 | With the default settings for S phases the differential times handed to the inversion are off by 1/150 of the difference of the travel times (the bias of C123), systematically, for as long as the windows are scaled with the travel time | `correlated_time_is_measured_partial`, `default_s_lag_biased` |
| C125 | Records that are the same sample by sample, at the same times after their picks, do not always get the lag zero: if the signal also fits at another lag (a steady rise, or a periodic signal), the smallest lag is reported, not the one closest to zero, and an inverted fit counts as much as an upright one | `identical_waveforms_lag` |
| C126 | A dead segment in the longer waveform (all samples the same, not zero) can make the rounded variance zero with a numerator that is not: the coefficient is infinite, replaces the best one so far, and is replaced in turn by the next finite coefficient, however small. A perfect match before the dead segment is forgotten | `dead_segment_forgets_match` |
| C126 | The rounded variance of a dead short waveform (all samples the same, not zero) can be negative: the coefficient is then NaN for every record and the delay returned is the last one | `dead_signal_no_coefficient` |
| C127 | Events on the other side of the date line are not found by the searches: the k-d tree splits by longitude as a number, and skips the half that holds them. An event near Fiji gets no neighbours although an eligible one is a degree away, in the outermost ellipsoid | `date_line_hides_events`, `date_line_hides_neighbours` |
| C128 | An origin without depth ends the listing with an exception when `--area` is given, one without a time of creation when `--org-type` is `last` or `first` (even an origin that other conditions exclude); events after it are not listed | `missing_depth_ends_listing`, `missing_creation_time_ends_listing` |
| C128 | A malformed `--area` is silently taken for no area; a misspelt `--org-type` is accepted and lists the origin stored last; longitude 180 is not in an area that starts at -180 | `bad_area_ignored`, `misspelt_kind_accepted`, `date_line_origin_not_listed` |
| C129 | The list written with `--simple` has no header: `scrtdd` takes the first origin for it and fails, or reads nothing if there is only one, and reads past the end of an empty vector if there is none | `simple_list_not_read` |
| C130 | With a maximum number of neighbours and two equally distant events, an unrelated event anywhere on Earth changes the shape of the index and thereby which of the two is selected | `useless_event_decides` |
| C133 | The documented time that profiles are kept in memory is 600 seconds if it is not configured, the effective one is 3600 seconds | `documented_time_alive_wrong` |
| C81 | all profiles are loaded when an origin is processed, also with `-O` and `--ep`, where the comment says they are not preloaded | `all_profiles_loaded` |
| C82 | the initial rms of step 1 is read from a moved-from catalog, so that it is lost or depends on the library | `start_rms_lost` |
| C82 | if only step 2 fails, the result of step 1 is lost | `first_step_lost` |
| C70, C83 | an event that left the travel-time model and was restored keeps the parameters given for it as a neighbour before its own turn: the solver is given, and the relocation reports, residuals of the place it was restored from | `restored_event_stale_residual` |
| C83 | an event without a solution in the first iteration keeps the marks of its picks from an earlier relocation | `old_pick_mark_returned` |

Noticed while reading, not proved: `Grid::_mode` and the default-constructed `KDTree::root` are uninitialised; interpolated
azimuths are truncated, not rounded; `coeff` and `lag` are uninitialised when `xcorrPhases` gives up before trying a component;
`WaveformProxy::loadTraces` compares a live iterator with an
erased one; the message "Insufficient number of neighbors" is built by pointer arithmetic (modelled as undefined behaviour
above 33 neighbours); the file logger is not removed on the early return of `relocateSingleEvent`; the buffers of LSQR leak when a product throws;
an exception while the disk cache is preloaded leaves the batch loader of that event behind the cache, so that waveforms not
in the cache are no longer loaded; the messages of `--dump-clusters` name the cluster after the one that is written;
the flattening of NAD-83 in the ellipsoid table is 1/294.26 where the comment beside it says 298.26; the `while` loops of the
projections do not end for longitudes so large that adding 360 does not change them; the default of `performance.profileTimeAlive` is 600 in scrtdd.xml and 3600 in the sample configuration file; the cache of distances in `Solver::computeInterEventDistance` is never filled;
the random suffix of a working directory is seeded with the current second, so two processes started in the same second choose the same name.

## Theorems tested against wrong programs

`seeded/LOG.jsonl` has one line per edit of a model definition, made in a scratch copy and rebuilt. `theorems_failed` lists the
theorems that no longer build, as `module: name`. The build stops at the first module that fails, so this is often a lemma in
`Proofs/`; the theorems of `Props/` that use it are then not reached. In these cases the statement of the property theorem was
read again to decide whether it is false of the edited program. Edits that left everything provable are kept in the log: they
name the theorems that were added or tightened because of them, and the same edit appears again, run after the tightening.
