{"id": "C01", "title": "LRU cache keeps exactly the most recently used keys", "statement": "After any sequence of put and get on an LRU cache of capacity N>0, the cache holds exactly the N most recently used distinct keys (all of them if fewer were used), each with the value of its last put; size never exceeds N; get of a retained key returns that value and get of any other key throws.", "quantifier": "every capacity and every finite history of put/get/clear operations", "why_tests_cant": "The set of histories is infinite and eviction depends on the whole history; a test only checks some interleavings.", "anchors": ["libs/hdd/lrucache.h: lru_cache::put, get, exists, size, clear"]}
{"id": "C02", "title": "LRU eviction callback fires exactly once per evicted entry", "statement": "The eviction callback is invoked exactly once for every entry pushed out by capacity, with its current value, and never for an entry still in the cache; with capacity 0 every put invokes the callback on its own entry and stores nothing.", "quantifier": "every capacity (including 0) and every history", "why_tests_cant": "Counting callbacks against insertions over arbitrary histories cannot be enumerated.", "anchors": ["libs/hdd/lrucache.h: lru_cache::put"]}
{"id": "C03", "title": "Cross-correlation cache is antisymmetric", "statement": "For two distinct events, whatever was added, removed or merged before, looking up (a,b) and (b,a) for the same station and phase either both fail or both succeed with the same coefficient and validity and opposite lag.", "quantifier": "every history of add/remove/merge, every event pair, station and phase type", "why_tests_cant": "Must hold after every interleaving of additions in either direction.", "anchors": ["libs/hdd/xcorrcache.h: XCorrCache::add, get, has, remove", "libs/hdd/xcorrcache.cpp"]}
{"id": "C04", "title": "Cross-correlation cache returns the last value written for a pair", "statement": "A lookup returns the most recent value added for that unordered pair/station/phase (with lag negated if it was added in the opposite direction), and nothing if the pair was never added or was removed since; other pairs are unaffected.", "quantifier": "every history of add/remove operations with distinct event ids", "why_tests_cant": "Last-writer-wins over two storage directions is a property of the whole history.", "anchors": ["libs/hdd/xcorrcache.h: XCorrCache::add, get, remove"]}
{"id": "C05", "title": "Time windows are never negative and form a lattice", "statement": "Whatever operations are applied, a time window's start never exceeds its end; overlap is the intersection, merge is the smallest window containing both, contains is set inclusion, and extending a window keeps containing the original.", "quantifier": "every pair of windows and every sequence of setStartTime/setEndTime/extend/merge/overlap", "why_tests_cant": "Unbounded time domain; clamping cases interact.", "anchors": ["libs/hdd/timewindow.h: GenericTimeWindow"]}
{"id": "C06", "title": "Slicing a trace keeps the requested samples and their times", "statement": "If slice(tw) succeeds, the resulting trace covers tw, every kept sample is the original sample with the same time, no access is outside the original data, and at most one sample of slack is kept on each side; if it fails the trace is unchanged. It fails only when tw is not contained in the trace.", "quantifier": "every trace length, sampling frequency, start time and requested window", "why_tests_cant": "Index arithmetic over arbitrary real times and frequencies.", "anchors": ["libs/hdd/trace.h: GenericTrace::slice, index, endTime, timeWindow"]}
{"id": "C07", "title": "UTC time text format round-trips", "statement": "Formatting a time as text and parsing the text gives back the same microsecond; therefore two different times have different texts (used as waveform cache keys).", "quantifier": "every representable microsecond time", "why_tests_cant": "Domain of 10^17 values; carries and calendar rules.", "anchors": ["libs/hdd/utctime.cpp: UTCClock::toString, fromString, fromDate, toDate"]}
{"id": "C08", "title": "Calendar conversion is exact and injective", "statement": "Converting a UTC time into year/month/day/h/m/s/us and back gives the original time, with each field in its calendar range.", "quantifier": "every time from 1970-01-01 on (times before 1970 are characterised too)", "why_tests_cant": "Leap year and carry rules over an unbounded number of days.", "anchors": ["libs/hdd/utctime.cpp: UTCClock::fromDate, toDate"]}
{"id": "C09", "title": "CSV rows round-trip", "statement": "Any list of fields (including fields with commas and quotes), written with standard CSV quoting, is read back as the same list; the reader yields exactly one field more than the number of unquoted commas and never fails.", "quantifier": "every non-empty list of strings without line breaks", "why_tests_cant": "Infinite set of strings; a state machine over each character.", "anchors": ["libs/hdd/csvreader.cpp: readRow, read"]}
{"id": "C10", "title": "CSV header mapping never mixes columns", "statement": "Reading with a header maps, in every row, each distinct header name to that row's field at the header's position; missing trailing fields become empty and excess fields are dropped; the number of rows is preserved. An empty file is handled.", "quantifier": "every header and every list of rows of any length", "why_tests_cant": "Rows of arbitrary lengths and duplicates.", "anchors": ["libs/hdd/csvreader.cpp: format, readWithHeader"]}
{"id": "C11", "title": "Catalog integrity is invariant", "statement": "After any sequence of catalog operations every event and station is stored under its own id, ids are unique, and every event added without keeping its id receives an id not in use before; no existing event is ever overwritten by addEvent/add.", "quantifier": "every history of addStation/addEvent/addPhase/add/remove/update operations", "why_tests_cant": "Invariant over unbounded histories.", "anchors": ["libs/hdd/catalog.cpp: Catalog::addEvent, addStation, addPhase, add, removeEvent, updateEvent"]}
{"id": "C12", "title": "Removing or extracting an event affects that event only", "statement": "removeEvent removes the event and all of its phases and nothing else; extractEvent returns exactly the event, its phases and the stations they refer to; extracting with kept ids and re-adding to the catalog without it restores event and phases.", "quantifier": "every catalog and event id", "why_tests_cant": "Frame properties over all catalogs.", "anchors": ["libs/hdd/catalog.cpp: Catalog::removeEvent, extractEvent, add"]}
{"id": "C13", "title": "Merging catalogs loses nothing and corrupts nothing", "statement": "Merging catalog B into A with new ids yields all events of A unchanged plus one renumbered copy of each event of B, each keeping its own phases and stations; with kept ids, events of B whose id is in A are skipped and all others are copied.", "quantifier": "every pair of catalogs in which every phase refers to an existing event and station, with room below 2^32 for the new ids, and every chain of merges", "why_tests_cant": "Unbounded catalogs; id renumbering must keep phases attached to the right event.", "anchors": ["libs/hdd/catalog.cpp: Catalog::add(const Catalog &, bool)", "apps/scrtdd/rtddtool.cpp: --merge-catalogs"]}
{"id": "C14", "title": "Phase classification and pick weights", "statement": "Every phase is classified P iff its label is in the P list, S iff it is in the S list and not the P list, and otherwise is ignored; every a-priori pick weight is 1/2^k with k a valid class index, never negative nor above 1, and a larger uncertainty never gets a larger weight.", "quantifier": "every phase label, uncertainty (including missing) and increasing class list", "why_tests_cant": "Real-valued uncertainties and arbitrary class lists.", "anchors": ["libs/hdd/catalog.cpp: Catalog::fillProcessingInfo, computePickWeight"]}
{"id": "C15", "title": "Identifier/index mapping is a bijection", "statement": "Converting identifiers to indices assigns 0,1,2,... in order of first use, gives the same index for the same id forever, and the reverse lookup is the exact inverse.", "quantifier": "every sequence of conversions", "why_tests_cant": "Invariant over histories.", "anchors": ["libs/hdd/index.h: IdToIndex"]}
{"id": "C16", "title": "Solver operator and its transpose are adjoint", "statement": "The two matrix-vector products handed to the least-squares solver satisfy <A x, y> = <x, A^T y>, for any system (including events kept fixed and travel-time constraint rows).", "quantifier": "every double-difference system and vectors x, y", "why_tests_cant": "Universal over real vectors and system sizes; a wrong index would silently yield wrong locations.", "anchors": ["libs/hdd/solver.cpp: Adapter::Aprod1, Aprod2"]}
{"id": "C17", "title": "Solver operator is the double-difference design matrix", "statement": "Row k of the operator applied to x equals w_k * (sum over the 4 parameters of (G[ev1] dx_ev1 - G[ev2] dx_ev2)) with the terms of fixed events omitted.", "quantifier": "every system, row and vector", "why_tests_cant": "Universal over system sizes.", "anchors": ["libs/hdd/solver.cpp: Adapter::Aprod1, DDSystem"]}
{"id": "C18", "title": "Column normalisation does not change the solution", "statement": "Scaling columns to unit norm before solving and rescaling the solution afterwards gives exactly the minimisers of the unnormalised undamped system; scaling factors are always positive.", "quantifier": "every system and every solution vector", "why_tests_cant": "Universal over reals.", "anchors": ["libs/hdd/solver.cpp: Adapter::L2normalize, L2DeNormalize"]}
{"id": "C19", "title": "First observation of a pair wins and is never duplicated", "statement": "Adding the same observation (pair, station, phase) twice leaves the first value, and the number of rows of the system equals the number of distinct observations.", "quantifier": "every sequence of addObservation calls", "why_tests_cant": "Histories unbounded; keys are composed strings that could collide.", "anchors": ["libs/hdd/solver.cpp: Solver::addObservation, prepareDDSystem"]}
{"id": "C20", "title": "Building the equation system never indexes out of range", "statement": "For every set of observations whose events and stations have parameters, system preparation completes, all row/event/station indices are within the allocated arrays, and every observation contributes exactly one row plus one row per constrained event/station.", "quantifier": "every sequence of addEvent/addStation/addObservation/addObservationParams calls", "why_tests_cant": "Unbounded sizes and hash-map orders.", "anchors": ["libs/hdd/solver.cpp: Solver::prepareDDSystem, DDSystem"]}
{"id": "C21", "title": "Residual weights are in [0,1] and decrease with the residual", "statement": "The residual-based weight of each observation lies in [0,1], is 1 for zero residual, is 0 beyond alpha*MAD/0.67449 and never increases with the absolute residual; with zero MAD all is well defined.", "quantifier": "every list of residuals and every alpha", "why_tests_cant": "Universal over reals.", "anchors": ["libs/hdd/solver.cpp: computeResidualWeights"]}
{"id": "C22", "title": "Only constrained events are reported as moved", "statement": "The solver reports a change for an event only if it is a free event with at least one observation with non-zero weight, and the reported change is exactly the solution's four components for that event.", "quantifier": "every system and solution", "why_tests_cant": "Universal over systems.", "anchors": ["libs/hdd/solver.cpp: Solver::loadSolutions, getEventChanges"]}
{"id": "C23", "title": "Spatial index contains every event exactly once", "statement": "The tree built from any list of points stores exactly those points (with multiplicity), with the ordering invariant on every node.", "quantifier": "every list of points", "why_tests_cant": "Induction on unbounded trees.", "anchors": ["libs/hdd/kdtree.h: KDTree::buildRecursive"]}
{"id": "C24", "title": "Radius search returns exactly the points within the radius", "statement": "radiusSearch returns exactly the points at distance <= radius, provided the per-axis distance never exceeds the true distance.", "quantifier": "every tree, query point and radius", "why_tests_cant": "Pruning soundness is universal.", "anchors": ["libs/hdd/kdtree.h: KDTree::radiusSearch"]}
{"id": "C25", "title": "Nearest neighbour search is exact", "statement": "nnSearch returns a point at minimum distance and knnSearch the k nearest, under the same admissibility condition.", "quantifier": "every tree, query point and k", "why_tests_cant": "Pruning soundness is universal.", "anchors": ["libs/hdd/kdtree.h: KDTree::nnSearch, knnSearch"]}
{"id": "C26", "title": "Best-first enumeration visits points in order of distance", "statement": "bestFirstSearch visits every point exactly once in non-decreasing distance order, until the visitor stops it (under the same condition).", "quantifier": "every tree, query point and visitor", "why_tests_cant": "Universal; priority queue history.", "anchors": ["libs/hdd/kdtree.h: KDTree::bestFirstSearch"]}
{"id": "C27", "title": "Per-axis distance is a lower bound of the true distance", "statement": "The distance used to prune half spaces never exceeds the distance to any point in the pruned half space.", "quantifier": "all pairs of geographic points", "why_tests_cant": "Universal over reals; fails off the equator for the longitude axis, which tests at low latitude do not reveal.", "anchors": ["libs/hdd/kdtree.h: KDTree::axisDist"]}
{"id": "C28", "title": "Every selected neighbour satisfies all configured constraints", "statement": "Every neighbour returned for an event differs from it, belongs to the catalog, is within the maximum distance (in ellipsoid mode: inside the outermost ellipsoid), and each retained phase is a used phase present in both events at the same station with event-station distances and station-to-interevent ratio within the configured limits; neighbours have at least minNumPhases and at most maxNumPhases phases; at most maxNumNeigh neighbours.", "quantifier": "every catalog and configuration", "why_tests_cant": "Universal over catalogs.", "anchors": ["libs/hdd/clustering.cpp: selectNeighbouringEvents"]}
{"id": "C29", "title": "Neighbour selection is maximal", "statement": "An eligible event is left out only if the maximum number of neighbours has been reached; in nearest mode the selected are the closest eligible ones.", "quantifier": "every catalog and configuration", "why_tests_cant": "Universal over catalogs.", "anchors": ["libs/hdd/clustering.cpp: selectNeighbouringEvents"]}
{"id": "C30", "title": "Station distance limits apply to the reference event", "statement": "Phases of the reference event at stations closer than minEvStaDist or farther than maxEvStaDist are not used.", "quantifier": "every catalog and configuration", "why_tests_cant": "Universal; the code's condition uses OR.", "anchors": ["libs/hdd/clustering.cpp: selectNeighbouringEvents (validatedStations)"]}
{"id": "C31", "title": "Catalog-wide selection is closed", "statement": "In the result every event has at least minNumNeigh neighbours and every neighbour is itself in the result; the removal loop terminates for any catalog.", "quantifier": "every catalog and configuration", "why_tests_cant": "Fixpoint loop over unbounded sets; termination.", "anchors": ["libs/hdd/clustering.cpp: selectNeighbouringEventsCatalog"]}
{"id": "C32", "title": "Clusters are the connected components", "statement": "Clustering partitions the events: each event is in exactly one cluster, two events are in the same cluster iff linked by a chain of neighbour relations.", "quantifier": "every neighbour relation", "why_tests_cant": "Graph property over unbounded graphs and any traversal order.", "anchors": ["libs/hdd/clustering.cpp: clusterizeNeighbouringEvents"]}
{"id": "C33", "title": "Each neighbour pair is used exactly once", "statement": "After clustering, each unordered pair of neighbouring events appears in exactly one direction, and no pair is lost.", "quantifier": "every neighbour relation", "why_tests_cant": "Universal over graphs and orders.", "anchors": ["libs/hdd/clustering.cpp: clusterizeNeighbouringEvents"]}
{"id": "C34", "title": "Ellipsoid layers and quadrants cover the search volume", "statement": "Every point inside the outermost ellipsoid lies in exactly one layer and at least one of the eight quadrants of it, so the round-robin selection never gets stuck with points unassigned.", "quantifier": "every number of ellipsoids, size, origin and point", "why_tests_cant": "Universal over reals.", "anchors": ["libs/hdd/ellipsoid.h: HddEllipsoid, isInQuadrant", "libs/hdd/clustering.cpp"]}
{"id": "C35", "title": "Cross-correlation coefficient is the exact normalised correlation and its maximum is found", "statement": "For each delay the running-sum computation equals the Pearson correlation of the short trace with the aligned part of the long one; it lies in [-1,1]; the reported delay is the first one attaining the largest absolute coefficient.", "quantifier": "every pair of sample arrays and every size", "why_tests_cant": "Universal over reals and lengths; incremental update correctness by induction.", "anchors": ["libs/hdd/xcorr.cpp: crossCorrelation"]}
{"id": "C36", "title": "Cross-correlation lag is antisymmetric, bounded and memory safe", "statement": "Swapping the two traces negates the lag and keeps the coefficient; the lag never exceeds the allowed maximum delay nor the available data; no sample outside the arrays is read.", "quantifier": "every pair of non-empty traces with equal frequency and every maximum delay", "why_tests_cant": "Universal over lengths.", "anchors": ["libs/hdd/dd.cpp: DD::xcorr", "libs/hdd/xcorr.cpp: crossCorrelation"]}
{"id": "C37", "title": "Waveform memory cache is transparent", "statement": "Whatever was requested before, the cached processor returns the same result as processing the request directly, and never retries a waveform known to be unavailable.", "quantifier": "every request history", "why_tests_cant": "History property; the cache key omits some request parameters.", "anchors": ["libs/hdd/waveform.cpp: MemCachedProc::get"]}
{"id": "C38", "title": "Waveform disk cache is transparent and safe", "statement": "A trace read through the disk cache equals the trace the underlying loader would return; a failed load stores nothing; later requests for the same window do not hit the loader again.", "quantifier": "every request history and every failure pattern", "why_tests_cant": "History and fault patterns unbounded.", "anchors": ["libs/hdd/waveform.cpp: DiskCachedLoader::get, storeWaveform"]}
{"id": "C39", "title": "Batch loader serves every request once loaded", "statement": "Each distinct waveform is requested from the data source exactly once; after load() each requested waveform is available iff the source delivered it.", "quantifier": "every sequence of get before and after load, every outcome of the source", "why_tests_cant": "History property.", "anchors": ["libs/hdd/waveform.cpp: BatchLoader"]}
{"id": "C40", "title": "Extended load window contains the requested one", "statement": "The window actually loaded contains the window requested (so slicing cannot fail because of it), is aligned to full seconds and spans at least the configured length around the pick.", "quantifier": "every request window, pick time and configured lengths", "why_tests_cant": "Rounding over an unbounded time domain.", "anchors": ["libs/hdd/waveform.cpp: ExtraLenLoader::traceTimeWindowToLoad"]}
{"id": "C41", "title": "Horizontal component rotation is an isometry with right time base", "statement": "Rotating to radial/transverse preserves the sum of squares sample by sample and outputs start at the start of the common time window.", "quantifier": "every pair of traces and angles", "why_tests_cant": "Universal over reals.", "anchors": ["libs/hdd/waveform.cpp: transformRT, transformL2"]}
{"id": "C42", "title": "Grid reads never leave the file and distinct nodes have distinct offsets", "statement": "Every node read is inside the data file of the declared size; distinct node indices map to distinct, non-overlapping byte ranges.", "quantifier": "every grid size and every index", "why_tests_cant": "Universal over sizes.", "anchors": ["libs/hdd/nll/grid.cpp: Grid::getValueAtIndex"]}
{"id": "C43", "title": "Grid interpolation is exact at nodes, bounded by the cell and continuous", "statement": "Interpolated values equal the node value at nodes, lie between min and max of the cell corners, and for a constant field return the constant.", "quantifier": "every location inside the grid and all corner values", "why_tests_cant": "Universal over reals.", "anchors": ["libs/hdd/utils.cpp: interpolateBilinear, interpolateTrilinear", "libs/hdd/nll/grid.cpp: getValuesAt3DLocation, getValuesAt2DLocation"]}
{"id": "C44", "title": "Geographic transforms are inverse of each other", "statement": "Converting latitude/longitude to grid coordinates and back returns the original position, for any rotation angle.", "quantifier": "every position where the projection is defined", "why_tests_cant": "Universal over reals.", "anchors": ["libs/hdd/nll/grid.cpp: Transform::rotate, inverseRotate, SimpleTransform, SDCTransform, LambertTransform, TransMercTransform, AziEqdistTransform", "libs/hdd/3rd-party/gmt/map_project.cpp: vlamb, lamb, ilamb, vtm, tm, itm, vazeqdist, azeqdist, iazeqdist"]}
{"id": "C45", "title": "Azimuth and longitude normalisation", "statement": "Normalised longitudes lie in [-180,180), azimuths in [0,360), and differ from the input by a multiple of the full turn; angle conversion to and from grid orientation is inverse.", "quantifier": "every finite angle", "why_tests_cant": "Universal over reals.", "anchors": ["libs/hdd/utils.cpp: normalizeLon, normalizeAzimuth", "libs/hdd/nll/grid.cpp: toLatLonAngle, fromLatLonAngle", "libs/hddsc/utils.cpp: normalizeAz"]}
{"id": "C46", "title": "Number of open grid files is bounded", "statement": "At any time the number of open grid files does not exceed the configured maximum, and every grid being read is open when it is read.", "quantifier": "every history of travel-time requests and every maximum", "why_tests_cant": "History property.", "anchors": ["libs/hdd/ttt/nllgrid.cpp: NLLGrid::compute", "libs/hdd/lrucache.h"]}
{"id": "C47", "title": "Relocation returns only relocated events", "statement": "The catalog returned by a relocation contains exactly the events for which the solver produced a solution, under their original id, with phases of those events only.", "quantifier": "every catalog and every solver outcome over every number of iterations", "why_tests_cant": "Depends on arbitrary solver outcomes per iteration.", "anchors": ["libs/hdd/dd.cpp: DD::relocate, updateRelocatedEvents"]}
{"id": "C48", "title": "Iteration-dependent parameters move monotonically from start to end value", "statement": "Over the solving iterations each iteration-dependent solver parameter goes monotonically from its start to its end value, never leaving that range; used values at the first and last iteration are exactly the configured ones.", "quantifier": "every number of iterations and start/end values", "why_tests_cant": "Universal over reals and counts.", "anchors": ["libs/hdd/dd.cpp: DD::relocate (interpolate)"]}
{"id": "C49", "title": "An event leaving the travel-time model is restored", "statement": "If the travel times for an event cannot be computed after an iteration moved it, the event is restored to its previous position.", "quantifier": "every failure pattern", "why_tests_cant": "Arbitrary failure patterns per iteration.", "anchors": ["libs/hdd/dd.cpp: DD::relocate"]}
{"id": "C50", "title": "Single-event relocation never moves catalog events", "statement": "In single-event mode only the target event has free parameters; background events are never changed.", "quantifier": "every catalog and event", "why_tests_cant": "Universal.", "anchors": ["libs/hdd/dd.cpp: DD::relocateSingleEvent, addObservations", "libs/hdd/solver.cpp"]}
{"id": "C51", "title": "Every due origin is eventually processed", "statement": "Each origin/event added to the real-time queue is processed at least once after its delay, whatever other objects arrive.", "quantifier": "every arrival schedule and timer schedule", "why_tests_cant": "A liveness/scheduling property over all interleavings.", "anchors": ["apps/scrtdd/rtddtool.cpp: RTDD::addProcess, runNewJobs, removeProcess"]}
{"id": "C52", "title": "Real-time scheduler safety", "statement": "At most one job is started per wake-up; a job is started only if it was added; a job is never started before its delay has elapsed since it was first added; the queue never holds a job twice; a job is started at most once per announcement and configured delay; two jobs are started at least one wake-up interval apart; an object whose job reports that it cannot be run again is not started again unless it is announced again.", "quantifier": "every arrival schedule and timer schedule", "why_tests_cant": "All interleavings.", "anchors": ["apps/scrtdd/rtddtool.cpp: RTDD::addProcess, runNewJobs, startProcess, removeProcess"]}
{"id": "C53", "title": "Profile selection and region test", "statement": "The first configured profile whose region contains the epicentre is selected; a rectangular region contains a point iff its latitude is within limits and its longitude lies on the eastward arc from lonMin to lonMax, also across the date line.", "quantifier": "every list of profiles and every coordinate", "why_tests_cant": "Universal over reals.", "anchors": ["apps/scrtdd/rtddtool.cpp: RTDD::getProfile, RectangularRegion::isInside"]}
{"id": "C54", "title": "Azimuthal gap is the largest empty sector", "statement": "The reported azimuthal gap is the largest angle between circularly consecutive station azimuths and the secondary gap the largest sector after removing one station; 0 <= primary <= secondary <= 360.", "quantifier": "every list of azimuths", "why_tests_cant": "Universal over lists.", "anchors": ["libs/hddsc/utils.cpp: convertOrigin"]}
{"id": "C55", "title": "Waveform requests are merged without losing data", "statement": "Splitting waveform requests into connections terminates, uses at most one stream per station per connection, and every requested window is contained in a window requested for the same stream.", "quantifier": "every set of requests, any iteration order", "why_tests_cant": "Loop termination and coverage over unbounded multimaps.", "anchors": ["libs/hddsc/waveform.cpp: WaveformProxy::loadTraces"]}
{"id": "C56", "title": "Robust statistics are correct", "statement": "The median splits the sample in halves, MAD is the median of absolute deviations, and the five-number summary is ordered and consists of order statistics.", "quantifier": "every non-empty list", "why_tests_cant": "Universal over lists.", "anchors": ["libs/hdd/utils.cpp: computeMedian, computeMedianAbsoluteDeviation, compute5numberSummary, computeMean"]}
{"id": "C57", "title": "Scaled norms equal Euclidean norms", "statement": "The overflow-safe norms used by the least-squares solvers equal the mathematical Euclidean norms.", "quantifier": "every vector", "why_tests_cant": "Universal over vectors.", "anchors": ["libs/hdd/3rd-party/lsqr-lsmr/lsqr.cpp: D2Norm, Dnrm2"]}
{"id": "C58", "title": "Iterative solver stops and its bidiagonalisation is consistent", "statement": "The solver performs at most the configured number of iterations, and on every iteration the vectors satisfy the bidiagonalisation identities with unit norm, given an adjoint pair of products.", "quantifier": "every system, right-hand side and number of iterations", "why_tests_cant": "Loop invariants over reals.", "anchors": ["libs/hdd/3rd-party/lsqr-lsmr/lsqr.cpp: lsqrBase::Solve", "libs/hdd/3rd-party/lsqr-lsmr/lsmr.cpp"]}
{"id": "C59", "title": "Neighbour pair files round-trip", "statement": "Writing the neighbours of a cluster to a pair file and reading it back with the same catalog yields the same events, neighbours, phases and stations.", "quantifier": "every neighbour structure consistent with the catalog", "why_tests_cant": "Universal over structures.", "anchors": ["libs/hdd/clustering.cpp: Neighbours::writeToFile, readFromFile"]}
{"id": "C60", "title": "Each phase pair is cross-correlated once", "statement": "While building the cross-correlation cache each (event pair, station, phase type) is computed at most once in either direction, precomputed values are reused unchanged, and every pair of the cluster satisfying the distance limits ends up in the cache.", "quantifier": "every cluster and precomputed cache", "why_tests_cant": "Universal over clusters.", "anchors": ["libs/hdd/dd.cpp: DD::buildXCorrCache, buildXcorrDiffTTimePairs"]}
{"id": "C61", "title": "Observed double differences combine picks and cross-correlation correctly", "statement": "The differential time of a pair is the difference of travel times of the two picks, corrected by the lag only when the correlation is valid and at or above the threshold; weights lie between the a-priori weight and the a-priori weight times the scaler; negative travel times are never used; every observation given to the solver comes with parameters for both its events.", "quantifier": "every pair of events/phases and cache content", "why_tests_cant": "Universal over reals.", "anchors": ["libs/hdd/dd.cpp: DD::addObservations"]}
{"id": "C62", "title": "Distances are great-circle distances", "statement": "The distance between two positions is the central angle between them times the radius at the given depth; it is symmetric, and positions treated as identical are at most 4e-9 rad apart.", "quantifier": "every pair of positions and depth", "why_tests_cant": "Universal over reals.", "anchors": ["libs/hdd/utils.cpp: computeDistance"]}
{"id": "C63", "title": "Moving by distance and azimuth is undone by measuring them", "statement": "The position computed from a centre, a distance and an azimuth is at that distance and azimuth from the centre, with coordinates in the valid range.", "quantifier": "every centre other than a pole, distance up to half the circumference and azimuth", "why_tests_cant": "Universal over reals.", "anchors": ["libs/hdd/utils.cpp: computeCoordinates, computeAzimuth, computeDistance"]}
{"id": "C64", "title": "Catalog-wide selection discards no event needlessly", "statement": "If every event of a set has at least the requested number of eligible neighbours within the set, all events of the set are in the result of the catalog-wide selection: the result is the largest closed set.", "quantifier": "every catalog, configuration, set of events and iteration order", "why_tests_cant": "Quantifies over all subsets of the catalog and all removal orders.", "anchors": ["libs/hdd/clustering.cpp: selectNeighbouringEventsCatalog"]}
{"id": "C65", "title": "Correlation windows and the two directions of a pair", "statement": "The correlated window contains the pick and has the configured length plus the scaled travel time; the downloaded window extends it by the maximum delay on both sides. Correlating two picks in the opposite order succeeds in the same cases and gives the same coefficient and the opposite lag.", "quantifier": "every configuration, pair of picks and traces", "why_tests_cant": "Universal over times, settings and sample values.", "anchors": ["libs/hdd/dd.cpp: xcorrTimeWindowShort, xcorrTimeWindowLong, xcorrPhasesOneComponent"]}
{"id": "C66", "title": "Waveform processing keeps the time base and uses every sample once", "statement": "Resampling keeps the start time, gives the right number of samples, computes each output sample at the position of the same time from consecutive input samples each used once, and is linear; processing any request never misbehaves and returns traces covering the requested window.", "quantifier": "every trace, sampling frequency, request and data delivered by the source", "why_tests_cant": "Universal over traces, frequencies and rounding positions.", "anchors": ["libs/hdd/waveform.cpp: resample, BasicProcessor::get, BasicProcessor::loadAndProcess"]}
{"id": "C67", "title": "Take-off angles from grids are sound", "statement": "Azimuths interpolated inside a cell stay within the arc spanned by the corner azimuths (also across north), are exact at nodes and for a constant field; dips lie between the corner dips; an angle is rejected exactly when a corner has a quality below the cut-off; the packed node format loses nothing.", "quantifier": "every cell, corner values, position in the cell and cut-off", "why_tests_cant": "Universal over real-valued angles and positions.", "anchors": ["libs/hdd/utils.cpp: interpolateCubeAngles", "libs/hdd/nll/grid.cpp: AngleGrid"]}
{"id": "C68", "title": "Homogeneous travel times are consistent with their derivatives", "statement": "The two ways to ask the constant-velocity table for a travel time agree; the derivatives are those of the straight-ray travel time and form a slowness vector of length 1/velocity; the take-off dip lies in [0,180]; unknown phase types are refused.", "quantifier": "every event, station, velocity and phase type", "why_tests_cant": "Universal over real coordinates; states an analytic derivative.", "anchors": ["libs/hdd/ttt/homogeneous.cpp: Homogeneous::compute"]}
{"id": "C69", "title": "Velocity units and grid derivatives", "statement": "A velocity grid delivers km/s whatever unit it is stored in, and the derivatives computed from a grid are the components of a slowness vector of length 1/velocity with the sign given by the take-off dip.", "quantifier": "every velocity, cell size, unit and dip", "why_tests_cant": "Universal over real values.", "anchors": ["libs/hdd/nll/grid.cpp: VelGrid", "libs/hdd/ttt/nllgrid.cpp: NLLGrid::compute"]}
{"id": "C70", "title": "Parameters given to the solver describe the current hypocentres", "statement": "For every event and phase used by an observation the solver is given the travel time of the velocity model from the current hypocentre, the residual observed minus computed, and derivatives pointing away from the take-off direction; the parameters are free for the event being relocated and for neighbours exactly when these are not kept fixed.", "quantifier": "every catalog, neighbours, travel-time table and option", "why_tests_cant": "Universal over catalogs and real values.", "anchors": ["libs/hdd/dd.cpp: DD::addObservations", "libs/hdd/dd.cpp: DD::addObservationParams"]}
{"id": "C71", "title": "Each iteration applies the solution of the solver to the right event", "statement": "After each iteration every event of the cluster is moved by exactly the changes the solver gave for it (east/north to the epicentre, up reduces the depth, seconds added to the origin time), events without a solution and events outside the cluster stay, and the returned hypocentre is the one after the last iteration.", "quantifier": "every catalog, cluster, number of iterations and solver outcome", "why_tests_cant": "Arbitrary solver outcomes over arbitrarily many iterations.", "anchors": ["libs/hdd/dd.cpp: DD::relocate, updateRelocatedEvents"]}
{"id": "C72", "title": "Clusters are relocated independently and combined without loss", "statement": "Multi-event relocation relocates each cluster from the input catalog, using exactly the cross-correlation results of that cluster's pairs; the final catalog contains each relocated event, with its original id and picks, exactly as its own cluster returned it, and no other event.", "quantifier": "every catalog, list of clusters, initial cross-correlation results and solver behaviour", "why_tests_cant": "Universal over clusters and solver answers.", "anchors": ["libs/hdd/dd.cpp: DD::relocateMultiEvents", "libs/hdd/catalog.cpp: Catalog::add"]}
{"id": "C73", "title": "Solving a double-difference system returns a (nearly) optimal solution", "statement": "For every prepared double-difference system, with LSQR or LSMR, with or without column normalisation and for every non-negative damping factor: solving either fails with an exception, or returns event changes in the original units that, in exact arithmetic, do not fit the weighted damped double differences worse than no change at all (LSQR), are exactly optimal when the solver reports an exact solution, and are optimal up to a bound given by the tolerance when it reports that the least-squares criterion is met.", "quantifier": "every double-difference system whose event indices are in range (and, with normalisation, whose used columns are not zero), both methods, every iteration limit and non-negative damping factor", "why_tests_cant": "A test compares one small system with a known solution; that the value returned after denormalisation is near the optimum for every system size, weighting and damping needs a proof about the iteration.", "anchors": ["libs/hdd/solver.cpp: Solver::solve, Solver::_solve, Adapter", "libs/hdd/3rd-party/lsqr-lsmr/lsqr.cpp: lsqrBase::Solve", "libs/hdd/3rd-party/lsqr-lsmr/lsmr.cpp: lsmrBase::Solve"]}
{"id": "C74", "title": "Cross-correlation results survive being written to a file and read back", "statement": "Writing the cross-correlation results to a file and reading the file gives, for every pair of distinct events, station and phase, the same validity and the same coefficient and lag rounded to six decimals, from either side of the pair, and no other result. A file is read without error exactly when every row describes a result for a station of the catalog, and then the outcome is that of adding these results in order.", "quantifier": "every cache built through the public interface whose stations are in the catalog, whose texts contain no separators and whose numbers are at most 10^308, every iteration order", "why_tests_cant": "A test uses a few results; the round trip must hold for every number, sign and direction in which a pair is stored.", "anchors": ["libs/hdd/xcorrcache.cpp: writeXCorrToFile, readXCorrFromFile", "libs/hdd/csvreader.cpp: CSV::readWithHeader"]}
{"id": "C75", "title": "A catalog survives being written to files and read back", "statement": "Writing a catalog to the station, event and phase files and reading them gives a catalog with the same station and event ids, each with the same codes, exact times and the same numbers up to the digits written, the same phases up to order, and, when asked for, the same relocation information; without asking, nothing is marked as relocated.", "quantifier": "every consistent catalog with times from 1970 to 9999, numbers in the range of doubles of full precision, texts without separators, phases of known stations, and an event marked as relocated whenever a phase is; every iteration order", "why_tests_cant": "The files are the interface between runs; one lost digit, column or flag for some value range is not seen by a test on one catalog.", "anchors": ["libs/hdd/catalog.cpp: Catalog::writeToFile, Catalog::Catalog", "libs/hdd/utctime.cpp: UTCClock::toString, UTCClock::fromString"]}
{"id": "C76", "title": "Adding origins to a catalog", "statement": "Adding SeisComP origins to a consistent catalog gives every origin that has arrivals a new event of its own with its time, location and preferred magnitude, and the phases of its arrivals: only for picks that can be found and that the location used, and for all of those whose station is in the catalog or the inventory. Each new event id is mapped to its origin, everything already in the catalog stays unchanged and the catalog stays consistent. The call succeeds whenever the origins have a depth and the inventory has the coordinates.", "quantifier": "every list of origins, event parameters, cache, database answers, inventory and consistent catalog", "why_tests_cant": "Tests feed a few origins; missing attributes, unknown stations, shared stations and repeated calls combine without bound.", "anchors": ["libs/hddsc/utils.cpp: addToCatalog, DataSource, getPickUncertainty"]}
{"id": "C77", "title": "The relocated event becomes a SeisComP origin without losing anything", "statement": "The origin made from a relocated event has its time and location, the longitude as the same point between -180 and 180, one arrival per phase with its weight, residual, distance and azimuth, and for every arrival a pick with the time and channel of the phase: one of the source origin if there is any, otherwise a new one that is returned. The quality has the counts of phases and stations and the distances and gaps of the phases used. An origin that was added to a catalog and relocated gets all its picks back.", "quantifier": "every consistent one-event catalog whose phases differ in time or channel and of which at least one was used, every source origin, event parameters and cache, every order of the phases", "why_tests_cant": "The result depends on which picks match which phases; the pairing must be right for all of them.", "anchors": ["libs/hddsc/utils.cpp: convertOrigin, normalizeAz", "libs/hdd/utils.h: normalizeLon"]}
{"id": "C78", "title": "Editing a catalog changes only what was asked for", "statement": "Adding, updating or removing a station, event or phase changes that entry only: the other stations, events and phases, and their order, stay as they are; an update reports whether there was something to update; removing a phase removes one phase of that event, station and type. Searching by codes, or by event, station and type, finds the entry exactly if it exists. A catalog built from lists contains every given event and phase in order and the first station of each combination of codes, and is refused exactly when two events have the same id; one built from the rows of files contains the last row of each event id and of each combination of station codes and all phases in order, and is refused exactly when a phase has codes of no station.", "quantifier": "every catalog, entry and combination of flags", "why_tests_cant": "Frame conditions concern everything that is not touched, in catalogs of any size.", "anchors": ["libs/hdd/catalog.cpp: addStation, addPhase, removePhase, updateStation, updateEvent, searchStation, searchPhase"]}
{"id": "C79", "title": "A list of neighbours remembers exactly what was added", "statement": "After any calls, a list of neighbours contains exactly the (neighbour, station, phase) triples added since that neighbour was last removed; all questions about neighbours, stations and phases are answered accordingly and without repetitions.", "quantifier": "every sequence of additions and removals", "why_tests_cant": "The answers depend on the whole history of calls.", "anchors": ["libs/hdd/clustering.cpp: Neighbours::add, remove, has, ids, stations, phases, amount"]}
{"id": "C80", "title": "The application relocates exactly the origins it is configured for, and publishes exactly the results", "statement": "Whatever arrives and whenever, each job started by the real-time application concerns an object added before; if the origin passes the configured filters (preferred, evaluation mode, author, agency, or processing is forced) and a profile fits, the origin is relocated with the first profile that fits and the result is published, otherwise the job has no effect. The origins sent and stored are exactly the results of the started jobs, in this order; in test mode nothing is sent. Scheduling follows C51 and C52. The application goes on as long as the jobs themselves succeed.", "quantifier": "every configuration, list of profiles and sequence of timer ticks, arrivals and reload requests, with any surroundings (database, cache, inventory, messaging) at every moment", "why_tests_cant": "The outcome depends on the whole history of arrivals, clock readings, reload requests and on the changing database.", "anchors": ["apps/scrtdd/rtddtool.cpp: RTDD::addProcess, startProcess, processOrigin, getProfile, runNewJobs, handleTimeout, handleMessage, updateObject"]}
{"id": "C81", "title": "A profile stays loaded until a reload is requested, and is fresh afterwards", "statement": "Whatever happens, a loaded profile keeps what it loaded until a request to reload it; what is used after such a request was loaded after it. A request affects only the first profile with the requested name. A profile that is not loaded is loaded at the next moment if that is possible. Memory is freed exactly when a loaded profile was not used for longer than the configured time; never if that time is negative.", "quantifier": "every history of the application and every profile, including profiles that fail to load at some moments", "why_tests_cant": "It is about all interleavings of requests, jobs and failed loads.", "anchors": ["apps/scrtdd/rtddtool.cpp: RTDD::checkProfileStatus, handleMessage, Profile::load, unload, freeResources, relocateSingleEvent"]}
{"id": "C82", "title": "The two steps of the relocation of one origin", "statement": "An origin is relocated in two steps: first without cross-correlation and with station distance ratio 1, then with the configured cross-correlation and a single ellipsoid, starting from the result of the first step or, if it gave nothing, from the origin. The result is that of the second step, except perhaps for the initial rms of its event.", "quantifier": "every origin, profile and outcome of the relocations, and every content of a moved-from catalog", "why_tests_cant": "The steps succeed and fail in all combinations, and a moved-from object is read.", "anchors": ["apps/scrtdd/rtddtool.cpp: Profile::relocateSingleEvent", "libs/hdd/dd.cpp: DD::relocateSingleEvent"]}
{"id": "C83", "title": "Residuals, weights, RMS values and marks reported with a relocation", "statement": "Every relocated event reports, for each of its picks, the a-priori weight, the residual at its initial and at its final hypocentre, and whether the pick was used by a solution that was kept; and the weighted root mean square of these residuals before and after. The start values stay those of the first iteration whatever happens later; events outside of the cluster are left entirely as they are.", "quantifier": "every catalog, cluster, number of iterations, solver outcome and pattern of restored events", "why_tests_cant": "Arbitrary solver outcomes and restorations over arbitrarily many iterations.", "anchors": ["libs/hdd/dd.cpp: DD::computeEventResiduals, updateRelocatedEvents, relocate"]}
{"id": "C84", "title": "Grids that cannot be found or loaded are given up, and no descriptor is kept", "statement": "When no travel-time grid is near enough to a station, or a grid cannot be loaded, every later request for it fails at once without searching or touching files; and with grids mapped or loaded into memory no file descriptor stays open between requests.", "quantifier": "every history of travel-time requests, every answer of the grid search and of the operating system", "why_tests_cant": "History property; failing operating-system calls cannot be provoked exhaustively.", "anchors": ["libs/hdd/ttt/nllgrid.cpp: NLLGrid::compute", "libs/hdd/ttt/grid.cpp: Grid::open"]}
{"id": "C85", "title": "A grid header is accepted exactly when it is complete, and it is read as written", "statement": "A NonLinLoc grid header is accepted exactly when it has the line of the dimensions, for time and angle grids the line of the station, and one transform line, in this order (other lines are ignored); sizes, origins, spacings, type, station and transform of the grid are then the numbers and words of these lines. A transform line is accepted exactly when it has the keywords of its type, readable numbers, a known ellipsoid, and origin, rotation and parallels in range.", "quantifier": "every header text and every kind of grid, with or without byte swapping", "why_tests_cant": "The set of texts is infinite, and the interesting ones are malformed: lines missing, repeated, or in another order.", "anchors": ["libs/hdd/nll/grid.cpp: Grid::parse", "libs/hdd/nll/grid.cpp: Transform::parse", "libs/hdd/nll/grid.cpp: Transform::Transform"]}
{"id": "C86", "title": "The grids of a velocity model are found by name, and a bad file only goes missing itself", "statement": "Opening a directory of NonLinLoc grids finds, for P and for S, exactly the time and angle files named after the velocity model whose header is accepted, of the right type, not with the global transform, and whose data file exists, and the velocity model if it is a usable velocity grid; whatever else is in the directory, and in whatever order it is listed, the others are found all the same. Unknown access methods are refused.", "quantifier": "every directory listing in any order, every file content, every model name without special characters", "why_tests_cant": "All directories and orders; a file of any content may be present.", "anchors": ["libs/hdd/ttt/nllgrid.cpp: NLLGrid::NLLGrid", "libs/hdd/nll/grid.cpp: TimeGrid::TimeGrid, AngleGrid::AngleGrid, VelGrid::VelGrid"]}
{"id": "C87", "title": "Catalog files are accepted exactly when every row is meaningful, and mean what they say", "statement": "Three catalog files are accepted exactly when every row of the station, event and phase file has the columns it needs with readable ids, times and numbers, and every phase is of a station in the station file. The catalog then has for every station and event id the last row with that id, and all phases in the order of the file. Magnitudes that cannot be read, and uncertainties of which one cannot be read, are NaN; relocation information is taken over exactly from rows marked as relocated, when asked for. Other files are rejected with an exception.", "quantifier": "every content of the three files, every set and order of columns, every text in a cell, every rounding to doubles", "why_tests_cant": "Users write these files by hand and with other programs: the space of texts is unbounded, and the rules for optional columns and partial numbers are only visible for texts no test contains.", "anchors": ["libs/hdd/catalog.cpp: Catalog::Catalog(stationFile, eventFile, phaFile, loadRelocationInfo)", "libs/hdd/csvreader.cpp: CSV::readWithHeader", "libs/hdd/catalog.cpp: strToBool"]}
{"id": "C88", "title": "Single-event relocation downloads exactly the waveforms it needs, together, without changing the result", "statement": "When one event is relocated, the waveforms of its picks that cross-correlation needs (the channels of the components configured for each pick that a close enough neighbour shares, for the correlation window and what the filter needs around it), and no others, are asked of the data centre, each once and all in one call; if none is needed no call is made. The correlations found are the same as if each waveform were fetched when it is needed. Picks that are neither P nor S phases have no part in this.", "quantifier": "every catalog, set of neighbours, pick, component setting and distance setting, every answer of a data centre that is consistent with itself, every order in which traces are kept", "why_tests_cant": "The set of requests depends on all picks, neighbours and settings together, and a missing request shows only as a correlation that is silently not made.", "anchors": ["libs/hdd/dd.cpp: DD::preloadNonCatalogWaveforms, DD::xcorrComponents, DD::getWaveform, DD::xcorrPhases", "libs/hdd/waveform.cpp: BatchLoader, BasicProcessor::get"]}
{"id": "C89", "title": "Messages lead to relocations of the objects configured, and every reload request is answered", "statement": "The objects processed are exactly those that arrived in a message and are of the kind configured: events if only preferred origins are wanted, otherwise origins. Picks and objects of the other kind never lead to a relocation, and every origin published is the result for such an object. Every request to reload a profile gets exactly one reply, in the order of the requests, which is an error exactly when no profile has the name asked for.", "quantifier": "every sequence of messages, timers and requests, every number and order of objects in a message, every clock and every state of the database at each moment, every configuration and set of profiles", "why_tests_cant": "Messages arrive in any mixture and order and the set of objects of one message is ordered by memory addresses, so no test fixes the schedule.", "anchors": ["apps/scrtdd/rtddtool.cpp: RTDD::handleMessage, RTDD::addObject, RTDD::updateObject, RTDD::handleTimeout, RTDD::getProfile"]}
{"id": "C90", "title": "Origins given on the command line are relocated once each, at once and in order", "statement": "With a list of origin ids, or an XML file of origins, every given origin that can be found is relocated exactly once, immediately and in the given order, whatever the configured filters, delays and schedules say, using the first profile responsible for it as it was first loaded successfully. All results are in the XML output if there is one. They are sent only if there is a connection and neither a test, an XML file nor XML output was asked for. The command ends normally if all the origins can be relocated.", "quantifier": "every list of ids and every XML file, every configuration and set of profiles, every state of the database and every clock while the origins are processed", "why_tests_cant": "The origins share the scheduler and the profiles, so that what happens to one depends on all those before it; no test covers every list.", "anchors": ["apps/scrtdd/rtddtool.cpp: RTDD::run, RTDD::addProcess, splitString"]}
{"id": "C91", "title": "Merging catalogs loses and mixes up nothing", "statement": "Merging catalogs that can be read gives, with new ids, every event of every catalog exactly once under an id of its own with its own phases and no other events; keeping the ids, one event per id, as in the first catalog that has it, with the phases it has there. Phases without an event are left out. Every station is one used in one of the catalogs, with the same values. A number of files that is not a multiple of three is refused. The files written are read back as the merged catalog, up to the digits written.", "quantifier": "every number of catalogs and every content of their files", "why_tests_cant": "The ids given depend on all events already merged, and catalogs may share ids and stations in any combination.", "anchors": ["apps/scrtdd/rtddtool.cpp: RTDD::run", "libs/hdd/catalog.cpp: Catalog::add, Catalog::writeToFile"]}
{"id": "C92", "title": "The XML output of a relocated catalog has one origin per event", "statement": "Relocating a catalog with XML output writes exactly one origin for every event of the relocated catalog, in the order of the ids, with the time, location, arrivals, picks and quality that the relocation found. For a catalog given as a file of origin ids every event comes from one origin named in the file that is found and has arrivals, and the origin written names it as its source; for a catalog given as three files there is no source. The command fails exactly when the catalog is empty or cannot be read, when no profile has the given name, or when the relocation fails.", "quantifier": "every catalog, every result of its relocation and every order of its phases", "why_tests_cant": "Every event is extracted from the whole catalog and converted with picks looked up in several places; the cases multiply with the number of events and phases.", "anchors": ["apps/scrtdd/rtddtool.cpp: RTDD::run, RTDD::getCatalog, RTDD::getProfile", "libs/hddsc/scutils.cpp: convertOrigin, addToCatalog"]}
{"id": "C93", "title": "One command is executed and messages leave only when they should", "statement": "Exactly one command is executed: the first asked for in the fixed order of the commands, or real-time processing if there is none. Relocations are sent as messages only in real time and when origins given by their ids are relocated, in both cases not as a test and in the second neither with an XML file nor with XML output. Messaging is switched off for all other commands, and a reload request sends exactly one message with the name of the profile.", "quantifier": "every combination of options", "why_tests_cant": "There are thousands of combinations of options, and sending a relocation by mistake changes the seismic catalog of others.", "anchors": ["apps/scrtdd/rtddtool.cpp: RTDD::validateParameters, RTDD::run"]}
{"id": "C94", "title": "The correlation of two picks is that of the reliable pick on the first component that works", "statement": "Two picks are correlated only if they are of the same phase and on sensors of the same kind. The components configured for the phase are tried in order (that of the pick if none is configured) and the first one on which a correlation is possible counts. The window around the reliable pick (catalog or manual) is searched in the longer waveform of the other one; if both or none are reliable both are searched and the larger coefficient counts. What is kept for the pair is exactly this lag and coefficient, or that there is none. The coefficient is between -1 and 1 and the lag within the configured maximum, and no sample outside a waveform is read.", "quantifier": "every pair of picks, every configuration and every waveform that arrives", "why_tests_cant": "Components, sources of the picks, missing data and trimming failures combine freely, and the choice depends on the values of the waveforms.", "anchors": ["libs/hdd/dd.cpp: DD::xcorrPhases, DD::xcorrPhasesOneComponent, DD::xcorrComponents, DD::getWaveform"]}
{"id": "C95", "title": "Preloading fills the disk cache with the waveforms of the catalog", "statement": "Preloading the waveforms of the catalog makes at most one download per event; a download asks only for waveforms of the event that were not readable in the cache, each once, and every waveform of a P or S pick of the catalog that was not readable is asked for. Files that could be read keep their content and no file of another waveform is written, whatever the data centre delivers and whatever goes wrong when writing. If writing works, the cache then holds for each waveform what it held before or else what the data centre has, so that correlating picks of the catalog reads it from the disk without asking the data centre again, and preloading again asks only for what the data centre does not have. Picks of other phases and missing waveforms do no harm.", "quantifier": "every catalog, configuration, content of the cache, data centre, order of the traces of a stream, and outcome of each write", "why_tests_cant": "Which waveforms are asked for depends on the whole catalog, on the content of the cache and on which events share waveforms; faults of the disk can happen at any write.", "anchors": ["libs/hdd/dd.cpp: DD::loadCatalogWaveformDiskCache, DD::initWaveformAccess, DD::replaceWaveformLoader", "libs/hdd/waveform.cpp: DiskCachedLoader::get, ExtraLenLoader::get, BatchLoader"]}
{"id": "C96", "title": "The travel-time table of a profile is the one written in its settings", "statement": "Loading a profile gives it exactly the travel-time table described by its type and model: grid files with the six settings of the text, a homogeneous medium with the two velocities of the text, or the table of SeisComP of that type with that model, with the defaults of the documentation for what is not configured. It fails exactly when the text does not have these parts, a number cannot be read, the access method or the type is unknown, the directory does not exist or SeisComP refuses the model. The same grid files with the same settings give the relocation the same travel times whether they are used directly or through SeisComP.", "quantifier": "every type, model text, configuration, directory content and SeisComP registry; every phase, event and station", "why_tests_cant": "The text is free: separators may be repeated, numbers may have any form, and any parameter may be missing; agreement of the two ways is about every query and every failure of the grids.", "anchors": ["apps/scrtdd/rtddtool.cpp: RTDD::Profile::load, splitString", "libs/hddsc/ttt.cpp: TravelTimeTable", "plugins/ttt/nll/nll_ttt.cpp: NLLGrid::setModel"]}
{"id": "C97", "title": "The SeisComP plugin answers with the grids of the phase, or says that there is none", "statement": "After a model was set, with any history before, a phase is computed with the P grids of this model if it is one of its P phases and with the S grids if it is one of its S phases; any failure is reported as 'no such phase' or, outside the grid, as out of range, and nothing else is thrown. After setting a model failed nothing of an earlier model remains. The list of travel times is ordered and has the P and the S travel time whenever the grids give them, and the first arrival is the first of them.", "quantifier": "every configuration, history of models, phase name, query, and answer or failure of the grids", "why_tests_cant": "The answers of the grids, the failures and the phase names are arbitrary, and a model may be set after any other.", "anchors": ["plugins/ttt/nll/nll_ttt.cpp: NLLGrid::setModel, NLLGrid::compute, NLLGrid::computeTime, NLLGrid::computeFirst"]}
{"id": "C98", "title": "Any background event may serve as neighbour, whatever the numbers", "statement": "The result of relocating one event does not depend on the number the event has in the catalog that is passed: neighbours, iterations and the relocated event are the same for all numbers, so that every event of the background catalog that meets the constraints may serve as neighbour.", "quantifier": "every background catalog, event, number and configuration, including those used by the background catalog", "why_tests_cant": "It relates two runs and ranges over all numbers and catalogs; test catalogs number their events so that the case of equal numbers is not met.", "anchors": ["libs/hdd/dd.cpp: DD::relocateSingleEvent", "libs/hdd/clustering.cpp: selectNeighbouringEvents", "apps/scrtdd/rtddtool.cpp: RTDD::Profile::relocateSingleEvent", "libs/hdd/catalog.cpp: Catalog::add, Catalog::addEvent"]}
{"id": "C99", "title": "Clusters dumped to files are relocated as if found anew", "statement": "`--dump-clusters` writes every cluster so that `--clusters` with its pair files gives back the same clusters, and relocating all clusters from files gives the same catalog, iterations and correlation results as relocating the catalog at once; relocating only some of the clusters gives each of their events the hypocenter, time and picks it has when the whole catalog is relocated.", "quantifier": "every catalog, configuration of the neighbour selection, order of containers, earlier content of the files, and list of clusters", "why_tests_cant": "It relates different runs of the program through the files between them, for all catalogs, numbers of clusters and orders of unordered containers; tests relocate one small catalog.", "anchors": ["apps/scrtdd/rtddtool.cpp: RTDD::dumpClusters, RTDD::relocateCatalog", "libs/hdd/clustering.cpp: Neighbours::writeToFile, Neighbours::readFromFile, selectNeighbouringEventsCatalog", "libs/hdd/dd.cpp: DD::findClusters, DD::relocateMultiEvents"]}
{"id": "C100", "title": "Saved correlation results spare all correlations of the next run", "statement": "The correlation results saved by one multi-event relocation can be given to the next; a run that wants no other pairs then correlates nothing, and uses for every pair, from either side, the saved result with coefficient and lag rounded to six decimals.", "quantifier": "every catalog, clusters of both runs, order of the saved rows, configuration and whatever the waveforms have become", "why_tests_cant": "It relates two whole runs through a file, for all catalogs and clusters and for waveforms that may have changed or be missing.", "anchors": ["libs/hdd/dd.cpp: DD::relocateMultiEvents, DD::buildXCorrCache", "libs/hdd/xcorrcache.cpp: XCorrCache::writeToFile, XCorrCache::readFromFile", "apps/scrtdd/rtddtool.cpp: RTDD::relocateCatalog"]}
{"id": "C101", "title": "A relocation always ends with a result", "statement": "Relocating a catalog, or a single event, ends normally with a result: no combination of events outside the travel-time tables, missing picks, isolated events, residuals, weights, damping or least-squares failures leads to an exception or to undefined behaviour, provided the input is a consistent catalog, the correlations return, and the pairs of a cluster fit into 32-bit indices. Relocating clusters given by the user ends normally if both events of every listed pair have the pick.", "quantifier": "every consistent catalog, event, configuration of selection, weights and solver (LSQR or LSMR), travel-time table, result of the correlations, and order of containers", "why_tests_cant": "Totality over all inputs: each of the many lookups, index computations and exceptions must be safe for every catalog and every result of every iteration; tests run a few catalogs.", "anchors": ["libs/hdd/dd.cpp: DD::relocateMultiEvents, DD::relocateSingleEvent, DD::relocate, DD::addObservations, ObservationParams::add", "libs/hdd/solver.cpp: Solver::prepare, Solver::solve, Solver::computeResidualWeights", "libs/hdd/clustering.cpp: selectNeighbouringEventsCatalog"]}
{"id": "C102", "title": "An iteration moves the events to nearly the best fit", "statement": "In every iteration of a relocation that has a solution, the events that may move and take part in an observation with a weight are moved by changes which minimise, up to the tolerance belonging to the reported stopping reason, the weighted squares of (double difference minus predicted double difference), plus the weighted squares of (travel-time residual minus predicted change), plus the squares of the damped changes; the weights are the a-priori weights, reduced for large residuals, and for the residuals the configured weight of the absolute locations times the mean weight of the observations. All other events stay.", "quantifier": "every cluster and catalog, all observations, weights, residuals and derivatives, every iteration, both solvers, with or without normalisation", "why_tests_cant": "Optimality means no better change exists among all real vectors, for every system; a test compares one answer on one system with a reference.", "anchors": ["libs/hdd/dd.cpp: DD::relocate, DD::updateRelocatedEvents", "libs/hdd/solver.cpp: Solver::prepare, Solver::solve, Solver::prepareDDSystem, Solver::loadSolutions", "libs/hdd/lsqr.cpp: lsqrBase::Solve", "libs/hdd/lsmr.cpp: lsmrBase::Solve"]}
{"id": "C103", "title": "With enough damping every iteration is made", "statement": "With normalisation and a damping factor of at least 0.01 (the smallest default) the solvers never reject their solution because of its condition number as long as there are at most 16000 events: an iteration then has no solution only if no event that may move is in an observation with a weight, and a relocation in which such an event is left makes all the iterations asked for. In general this holds whenever the damping is large relative to the norm of the weighted derivatives.", "quantifier": "every system of observations, all numbers, both solvers, every iteration and cluster", "why_tests_cant": "The condition estimate is accumulated over an unbounded number of solver iterations; that it never crosses the limit needs an invariant over all of them for every matrix.", "anchors": ["libs/hdd/solver.cpp: Solver::_solve", "libs/hdd/lsqr.cpp: lsqrBase::Solve", "libs/hdd/lsmr.cpp: lsmrBase::Solve", "libs/hdd/dd.cpp: DD::relocate"]}
{"id": "C104", "title": "Using the disk cache never changes the waveforms", "statement": "Switching the disk cache of catalog waveforms on (for any directory and trace length) or off, filling it, and unloading waveforms from memory can be mixed in any order with the use of waveforms: no call fails, and every waveform used is the one that the data centre gives when asked directly. After a call that failed, switching the cache on or off again restores this.", "quantifier": "every sequence of calls, every previous history, every content of the cache directories written by the program, every effect of the file writes except traces cut short, every catalog and data centre", "why_tests_cant": "The claim ranges over all interleavings of configuration calls, fills, failures and uses; the loaders share state across all of them.", "anchors": ["libs/hdd/dd.h: DD::enableCatalogWaveformDiskCache, DD::disableCatalogWaveformDiskCache, DD::loadCatalogWaveformDiskCache, DD::unloadWaveforms", "libs/hdd/dd.cpp: DD::initWaveformAccess, DD::replaceWaveformLoader, DD::loadCatalogWaveformDiskCache", "libs/hdd/waveform.cpp: DiskCachedLoader::get, ExtraLenLoader::get, MemCachedProc::get"]}
{"id": "C105", "title": "Profiles have the options that their parameters ask for", "statement": "The program starts exactly if the parameters of every profile to load are acceptable. It then has the profiles of activeProfiles, in order, and the one of the command line; each has for every documented parameter the value given in the configuration files (when it has the documented type) or the documented default. No parameter belongs to two profiles, and changing those of one profile does not change another. An origin gets the first active profile whose configured region contains it, or the one named on the command line. The database is kept when a catalog is given by origin ids.", "quantifier": "every configuration, every list of active profiles with any names, every command line profile, every origin", "why_tests_cant": "There are about fifty parameters with a default each, read by nearly identical code; a test would have to cover every combination of given and missing parameters and all profile names.", "anchors": ["apps/scrtdd/rtddtool.cpp: RTDD::validateParameters, RTDD::getProfile", "apps/scrtdd/descriptions/scrtdd.xml", "libs/hdd/dd.h: ClusteringOptions, XcorrOptions, SolverOptions, Config"]}
{"id": "C106", "title": "Dumped waveforms are those of the catalog", "statement": "Dumping the waveforms of the catalog, with or without a disk cache, before or after it was filled, writes for every pick of a known type and every component to correlate the waveform that the data centre has, processed and cut to the correlation window, if there is one, to a file that names the event, the station, the channel and the phase. Files of different waveforms have different names. A file that cannot be written does not keep the others from being written, no other file is touched, and the disk cache stays correct.", "quantifier": "every catalog, every setting, every history of calls before, every file already there, every failure to write", "why_tests_cant": "It depends on the state that earlier calls left in the caches and on which of many files can be written; a test sees one catalog with one state.", "anchors": ["libs/hdd/dd.cpp: DD::dumpWaveforms, DD::xcorrTimeWindowShort, DD::getWaveform"]}
{"id": "C107", "title": "Results do not depend on the order in which data are stored or visited", "statement": "Relocating the same events with the same picks, pairs and options gives the same catalog, and the same moves in every iteration, whatever the order in which the events of a cluster, the pairs of an event, the events, stations and picks of the catalog and the calls to the solver are stored or visited, and whatever order the partial sorting for the median leaves behind.", "quantifier": "every catalog, every cluster, every number of iterations, every pair of orders of every container involved", "why_tests_cant": "The orders are those of hash tables and of std::nth_element: a test sees the one order of its platform. A different library, or a different insertion history, gives another.", "anchors": ["libs/hdd/solver.cpp: Solver::addObservation, Solver::prepare, Solver::computeResidualWeights, Solver::solve", "libs/hdd/dd.cpp: DD::relocate, DD::addObservations, DD::ObservationParams::add"]}
{"id": "C108", "title": "The double-difference files list every observation of the first and of the last system", "statement": "Relocating with processing files writes a table with the header and one line for each distinct observation given to the solver before the first solution, and another one for those after the last solution: the two events, the station, the phase, the weight after reduction by residual, whether a cross-correlation was used and its coefficient, measured minus computed time difference, and the distance of the two events at that moment.", "quantifier": "every catalog, cluster, options, number of iterations, order in which the observations are stored, and history of calls to the solver", "why_tests_cant": "The lines are collected from four tables of the solver that are filled by different calls in hash order, at a moment between preparing and solving a system; a test shows one run, and the run in which a later system cannot be solved is missing from it.", "anchors": ["libs/hdd/dd.cpp: writeDoubleDifferenceToFile, DD::relocate", "libs/hdd/solver.cpp: Solver::getDoubleDifferences, Solver::computeInterEventDistance"]}
{"id": "C109", "title": "The summary by inter-event distance puts every observation in one group and describes each group correctly", "statement": "When a double-difference system is prepared, the log shows at most twenty lines: the distinct observations, sorted by the distance of their two events, are cut into groups of the same size (the last may be smaller); for each group the line gives the smallest and largest distance, the number of observations, the quartiles of the residuals and, if some observation has a cross-correlation coefficient, how many do and the five-number summary of their absolute values.", "quantifier": "every history of calls to the solver, order in which the observations are visited, choice of order statistics and distance function", "why_tests_cant": "Group sizes depend on the number of observations modulo the group size; the case in which the last group has fewer than four observations reaches undefined behaviour that usually goes unnoticed at run time.", "anchors": ["libs/hdd/solver.cpp: Solver::prepare, Solver::computeInterEventDistance", "libs/hdd/utils.cpp: compute5numberSummary"]}
{"id": "C110", "title": "The summary of the cross-correlations counts every correlated pair of picks once", "statement": "After correlating a cluster, the log shows for P and for S phases how many pairs of picks were correlated, how many of these failed, and how many have a coefficient at or above the threshold; and for each station with a correlation, in the order of the names, the number of correlations, the percentages of failures and of those above the threshold, and the five-number summary of the absolute coefficients of the successful ones. A pair of picks is counted once, in the station and phase type it belongs to; picks of a type that is in neither list are left out.", "quantifier": "every cluster, result of the correlations, lists of phase types, thresholds and choice of order statistics", "why_tests_cant": "The counts run over hash tables filled by another function, with a lookup that finds a pair in either direction; the undefined behaviour with one to three successes at a station goes unnoticed at run time.", "anchors": ["libs/hdd/dd.cpp: DD::logXCorrSummary", "libs/hdd/utils.cpp: compute5numberSummary"]}
{"id": "C111", "title": "The neighbours selected do not depend on how the data is stored or visited", "statement": "Selecting neighbours for the same events, stations and picks gives the same neighbours with the same phases, whatever the order in which the catalog stores them, the shape of the spatial index, the order in which equally distant entries leave its queue, and the order in which the loop over a whole catalog visits the events; so two runs on the same data, or with another standard library, relocate with the same pairs.", "quantifier": "every catalog, permutation of its content, index over its events, queue order, visiting order, event and configuration of the selection", "why_tests_cant": "A test fixes one order of the hash tables and one nth_element; the independence is about all of them, and for a whole catalog about every interleaving of discarding and selecting again.", "anchors": ["libs/hdd/clustering.cpp: selectNeighbouringEvents, selectNeighbouringEventsCatalog", "libs/hdd/catalog.cpp: Catalog (unordered containers)", "libs/hdd/kdtree.h: KDTree"]}
{"id": "C112", "title": "The report after filling the waveform disk cache counts each waveform once", "statement": "After the waveforms of the catalog have been put into the disk cache, the log reports how many were downloaded, how many were not available and how many were loaded from the disk cache. These are the numbers of waveforms of the catalog that the data centre delivered, that it did not have, and that were found in the cache. The report made before a single event is relocated does the same for the waveforms that its cross-correlations need.", "quantifier": "every catalog, cross-correlation configuration, content of the cache, answers of the data centre and success or failure of each write", "why_tests_cant": "The counters are incremented in loaders that are called twice for each component of each pick, while the cache changes; whether the sums are the numbers of waveforms has to hold for every combination of cached, available and repeated waveforms.", "anchors": ["libs/hdd/dd.cpp: WfCounters, DD::loadCatalogWaveformDiskCache", "libs/hdd/waveform.cpp: BatchLoader::load, DiskCachedLoader::get"]}
{"id": "C113", "title": "The log file of a relocation has the messages of that relocation", "statement": "When the processing is saved, the log file of a relocation gets, after what it had before, the messages of level info and higher of that relocation, in order and nothing else; the file of a cluster gets those of its cluster only. When the relocation has ended its log files are closed, whatever its result, and other files are left alone. In general a message is written to every file that is open as a log of at most its level, and shown to the logger in use if it is not below the global level.", "quantifier": "every sequence of calls of the log functions, and every sequence of relocations with any messages, files and endings", "why_tests_cant": "The log files are global state that outlives a relocation; whether messages end up in the wrong file depends on how all earlier relocations of the process ended.", "anchors": ["libs/hdd/log.cpp: log, logToFile, addFileLogger, removeFileLogger, setLogger, clearLogger", "libs/hdd/log.h: logInfoF", "libs/hdd/dd.cpp: DD::relocateSingleEvent, DD::relocateMultiEvents"]}
{"id": "C114", "title": "Every relocation that saves its files gets a new directory", "statement": "A relocation that saves its processing files without being given a directory uses a directory that did not exist before and that no other relocation uses, also if several processes relocate at the same time in the same place. The search for it ends.", "quantifier": "every set of existing directories, every readings of the clock, every sequence of relocations and every interleaving of the steps of several processes", "why_tests_cant": "Two relocations collide only if their steps fall into the same second in an unlucky order; tests see one order and a few existing directories.", "anchors": ["libs/hdd/dd.cpp: generateWorkingSubDirPath, DD::relocateSingleEvent, DD::relocateMultiEvents", "libs/hdd/random.h: UniformRandomer"]}
{"id": "C115", "title": "Answers of a travel-time grid table do not depend on what was asked before", "statement": "For a table of grid files, the answer to a request (a travel time, or a travel time with the direction of the ray) is the same whatever was asked before, however many grids may be open at a time and with every access method; it is the interpolation of the values written to the file of the grid nearest to the station, or an exception if there is none within the search distance. The two forms of a request agree on the time. Failures of the operating system can make requests fail but never change an answer.", "quantifier": "every set of grids, every history of requests of both kinds and of closing the files, every limit of open grids, access method and sequence of failures of the operating system", "why_tests_cant": "The cache of open grids, the list of grids that could not be loaded and the open files are state that accumulates over the life of the process; a wrong answer appears only after particular earlier requests or failures.", "anchors": ["libs/hdd/ttt/nllgrid.cpp: NLLGrid::compute, NLLGrid::closeOpenFiles", "libs/hdd/nll/grid.cpp: TimeGrid::getTime, VelGrid::getVel, AngleGrid::getAngles, Grid::open", "libs/hdd/lrucache.h"]}
{"id": "C116", "title": "A profile works with what it was loaded from, or refuses to work", "statement": "A profile is usable exactly if it was loaded since it was last unloaded. It then works with the catalog, the travel-time table, the options, the record stream and the disk cache that the first successful loading found: the catalog given with the command if there is one, else the file of origin ids if configured, else the three catalog files. A loading that fails leaves the profile unusable, and a profile that is not usable refuses its tasks without touching anything; no sequence of calls uses a missing object. Commands that are given a catalog never work on the one of the profile. Profiles with different names have separate waveform caches below the cache directory.", "quantifier": "every profile, every history of loading (with files, tables and directories that may change and fail in between), unloading and using it, every command line, every cache directory", "why_tests_cant": "The object behind a profile comes and goes with loading, failed loading, unloading on request and freeing; a stale or missing object shows only after particular histories.", "anchors": ["apps/scrtdd/rtddtool.cpp: RTDD::loadProfile, RTDD::Profile::load, unload, preloadWaveforms, freeResources, relocateSingleEvent, relocateCatalog, dumpWaveforms, dumpClusters, RTDD::run", "libs/hdd/dd.cpp: DD::DD, enableCatalogWaveformDiskCache"]}
{"id": "C117", "title": "Only travel times matter, not when the events happened", "statement": "If every event of a catalog, together with all of its picks, is moved in time by an amount of its own, then the same neighbours are selected, the solver is given the same observations in every iteration, and the same events are returned with the same coordinates, depths, residuals and weights, each later by exactly its own amount. The same holds for a catalog relocated cluster by cluster with cross-correlation whose waveforms move with the events, and for one event relocated against a background catalog when the event and the background events are moved by different amounts.", "quantifier": "every catalog, every amount per event, every configuration, every travel-time table, whatever the solver answers, every number of iterations, clusters and correlation results known before", "why_tests_cant": "An absolute time can leak into a comparison, a cached pick or the sign of a travel time anywhere in the loop; the claim compares two whole runs for every catalog and every choice of amounts.", "anchors": ["libs/hdd/dd.cpp: DD::relocate, addObservations, addObservationParams, computeEventResiduals, updateRelocatedEvents, relocateMultiEvents, relocateSingleEvent, buildXCorrCache", "libs/hdd/clustering.cpp: selectNeighbouringEvents, selectNeighbouringEventsCatalog", "libs/hdd/catalog.cpp: Catalog::add"]}
{"id": "C118", "title": "A catalog that fits the velocity model is left as it is", "statement": "If every pick of a catalog is exactly where the travel-time table predicts it for the catalog location of its event, and the cross-correlations ask for no shift, then a relocation changes no location, depth or origin time, reports residuals of zero, and the solver answers no change in every iteration.", "quantifier": "every such catalog, every cluster, every damping, absolute-location constraint, solver method and number of iterations, every travel-time table that depends on the hypocentre and the station, every order of the solver's hash tables", "why_tests_cant": "The claim is a fixed point over all catalogs and all options; it fails if any term of the residuals, the constraint rows or the update of the events has the wrong sign, the wrong event or the wrong pick, and a test fits one catalog at a time.", "anchors": ["libs/hdd/dd.cpp: DD::relocate, addObservations, addObservationParams, updateRelocatedEvents", "libs/hdd/solver.cpp: Solver::prepareDDSystem, computeResidualWeights, solve, loadSolutions", "libs/hdd/3rd-party/lsqr.cpp, lsmr.cpp"]}
{"id": "C119", "title": "Values that are not numbers never move an event", "statement": "If in some iteration a weight, a double difference or a scaling factor of the solver is not a finite number (0/0 in the residual weights, 1/0 in the normalisation), then no event is moved by that iteration: either the solver reports a failure, or all the changes it reports are zero. Consequently every iteration either moves the events by the least-squares optimum or leaves all of them exactly where they are.", "quantifier": "every set of observations and parameters, every damping, method, normalisation, number of iterations, every catalog and every iteration of a relocation; however the arithmetic rounds, for the propagation through LSQR and LSMR", "why_tests_cant": "The claim is about a whole class of degenerate inputs and every step of two iterative solvers: one comparison that is written the other way round, or one norm that skips a NaN, lets an undefined value through to a location.", "anchors": ["libs/hdd/solver.cpp: Adapter, Solver::_solve, loadSolutions, computeResidualWeights, L2normalize", "libs/hdd/3rd-party/lsqr.cpp: solver::solve, dnrm2", "libs/hdd/3rd-party/lsmr.cpp: solver::solve", "libs/hdd/dd.cpp: DD::relocate"]}
{"id": "C120", "title": "The least-squares solvers never divide by zero", "statement": "For finite data, weights and scaling factors LSQR and LSMR never divide by zero and never produce an infinity or a NaN apart from rounding and overflow, with or without damping: their solution consists of numbers, namely those of exact arithmetic.", "quantifier": "every double-difference system, both methods, every damping factor, every limit of iterations, with and without normalisation as long as no scaling factor in use is infinite", "why_tests_cant": "A division by zero happens only for special data (a zero direction, a vanishing residual, no damping) and the solvers divide in more than thirty places in every step; a test reaches a few of them.", "anchors": ["libs/hdd/3rd-party/lsqr.cpp: solver::solve", "libs/hdd/3rd-party/lsmr.cpp: solver::solve", "libs/hdd/solver.cpp: Solver::_solve, Adapter"]}
{"id": "C121", "title": "Times survive their conversion to seconds in double precision", "statement": "Converting a duration or a time since 1970 to seconds in double precision and back gives the same number of microseconds, and keeps the order of times, for all times within 2^32 seconds of 1970 (1833 to February 2106). Times exchanged with SeisComP are kept to the microsecond. A number of seconds within that range is converted to a whole number of microseconds at most 3/4 of a microsecond away, with the same sign.", "quantifier": "every duration and time of up to 2^32 seconds in either direction, every rounding that is exact on whole numbers up to 2^53, monotone and within half a unit in the last place; in particular the rounding of IEEE doubles", "why_tests_cant": "There are more than 10^16 times, and whether the rounding of one division loses a microsecond depends on the time; tests try a few of them, and none beyond the date at which it begins to fail.", "anchors": ["libs/hdd/timewindow.h: durToSec, secToDur", "libs/hdd/utctime.h: UTCClock", "plugins/scrtdd/hddsc/utils.cpp: toSC, fromSC"]}
{"id": "C122", "title": "Rounding does not make slicing a trace return wrong samples", "statement": "With the rounding of doubles, slicing a trace never has undefined behaviour, leaves the trace as it is if it fails, and if it succeeds returns consecutive samples at their times to within a microsecond that cover the requested window and at most one sample more on each side. It fails only when the window is not contained in the trace.", "quantifier": "every trace with a sampling frequency from 10^-6 to 10^6 Hz and a length of up to 2^28 seconds, every requested window, every rounding that is exact on whole numbers up to 2^53, monotone and within half a unit in the last place", "why_tests_cant": "Floor and ceiling of a rounded product jump by a whole sample when the product is a rounding error away from a whole number; which frequencies and times do that cannot be listed by tests.", "anchors": ["libs/hdd/trace.h: GenericTrace::slice, index, endTime, timeWindow", "libs/hdd/timewindow.h: durToSec, secToDur"]}
{"id": "C123", "title": "The lag of a correlation is the shift in time between the waveforms", "statement": "The lag reported for two picks is the time by which the part of the second waveform that is compared is later after its pick than the part of the first waveform it is compared with, to within one and a half samples (two for waveforms combined from the horizontal components); the compared parts are at least as long as the configured window (less one sample for combined waveforms), and the reported coefficient is theirs.", "quantifier": "every pair of picks and waveforms cut to the correlation windows, every sampling frequency, every reliability of the picks, all settings of the windows and of the maximum lag", "why_tests_cant": "The lag is counted in samples from the middles of two waveforms whose lengths and start times depend on the sampling, the windows and the travel times; how all these roundings add up is a statement about all of them, and a systematic error is easily lost in the noise of an example.", "anchors": ["libs/hdd/dd.cpp: DD::xcorr, DD::xcorrPhasesOneComponent, DD::xcorrTimeWindowLong, DD::xcorrTimeWindowShort", "libs/hdd/dd.h: XcorrOptions", "libs/hdd/waveform.cpp: BasicProcessor::get, loadAndProcess"]}
{"id": "C124", "title": "A correlated pair enters the inversion with the difference of the times at which its waveforms match", "statement": "Every observation handed to the inversion that uses a cross-correlation made for it equals (time of a part of the waveform of the first pick minus the present origin time of the first event) minus (time of the part of the waveform of the second pick that was compared with it minus the present origin time of the second event), to within one and a half samples (two for combined horizontal components). It does not matter which of the two events was correlated with the other, that the lag is stored for one direction only, or that the events have been moved by earlier iterations since; errors of the picks themselves cancel.", "quantifier": "all catalogs, clusters, cross-correlation settings, waveforms cut to their windows, states of the relocation (origins moved, picks kept), and both directions of every pair", "why_tests_cant": "the sign of the lag is turned around in four places (searching one waveform in the other, the order of the traces, storing for one direction, subtracting from the travel time difference); a test with one pair exercises one combination and symmetric data hide a wrong sign", "anchors": ["libs/hdd/dd.cpp: DD::addObservations, DD::buildXCorrCache, DD::xcorrPhases, DD::xcorrPhasesOneComponent", "libs/hdd/xcorrcache.h: XCorrCache::get, XCorrCache::add", "libs/hdd/waveform.cpp: crossCorrelation"]}
{"id": "C125", "title": "Gain and offset of the instruments do not matter, and the same signal is recognised where it is", "statement": "Instrument responses are not removed before waveforms are correlated. Correlating two waveforms gives the same lag, and the same coefficient up to its sign, whatever the gains (not zero) and offsets of the two instruments are. The coefficient of two series is 1 or -1 exactly if they are the same signal up to gain and offset, and 1 exactly if the polarity is also the same. If the longer waveform contains the signal of the shorter one at a lag that is allowed, the coefficient found is 1 or -1 and the lag reported is the first at which it does; if it contains it at one lag only, that lag is reported exactly. Two picks correlate perfectly only if parts of their waveforms at least as long as the configured window are the same signal, and if this signal is in both with a single shift, the lag is the time by which it is later after the second pick than after the first, to within one and a half samples (two for combined horizontal components) and the bias of the settings.", "quantifier": "all pairs of waveforms of the same sampling rate, all maximum lags whose number of samples fits in an int, all gains other than zero and all offsets; all correlation settings and picks", "why_tests_cant": "the sums over the windows are updated from one lag to the next, and a slip there is invisible for waveforms without an offset, for equal gains or for the first lag; that nothing but the same signal has coefficient 1 is a statement about all waveforms", "anchors": ["libs/hdd/waveform.cpp: crossCorrelation", "libs/hdd/dd.cpp: DD::xcorr, DD::xcorrPhasesOneComponent"]}
{"id": "C126", "title": "Rounding does not change which lag is found", "statement": "Cross-correlation is computed in double precision, with sums that are updated from one lag to the next. For every pair of waveforms whose analysed parts are not small compared with their largest sample (variance at least A²/r, where no sample exceeds A), the lag found has a coefficient that differs from Pearson's by at most 160 (n + m + 1) r / 2^53, where n is the number of samples of the shorter waveform and m + 1 the number of lags, and no lag has a larger absolute coefficient than the one reported plus this bound. If one lag is better than the others by more than twice the bound, that lag is reported, the same as in exact arithmetic. Reversing the polarity of a waveform changes nothing but the sign of the coefficient, exactly, whatever the samples are. A dead segment (all samples the same) in the longer waveform is ignored.", "quantifier": "all waveforms of rational samples with A between 2^-500 and 2^400, all numbers of samples and lags with 640 (n + m + 1) r at most 2^53; all roundings of sums, products, quotients and roots to within half a unit in the last place, in particular those of IEEE 754", "why_tests_cant": "errors of the updated sums grow with the number of lags and cancel or not depending on the samples; tests see a few waveforms, on one machine", "anchors": ["libs/hdd/xcorr.cpp: crossCorrelation", "libs/hdd/dd.cpp: DD::xcorr"]}
{"id": "C127", "title": "The date line plays no special role", "statement": "Turning all events and stations together by any angle of longitude, over the date line or not, with longitudes written in any way, changes no distance and no azimuth between places that are not the same, nor whether one is in an ellipsoid about the other or in one of its quadrants, nor (but for the turn) where a move by a distance and an azimuth leads to; and a search around an event, and so the selection of neighbours, finds the same events.", "quantifier": "all places, all angles, all ways to write a longitude; for the searches, all sets of events, all centres and radii and all results of nth_element", "why_tests_cant": "places, angles and sets of events are unbounded; test catalogs are in one region, away from the date line", "anchors": ["libs/hdd/utils.cpp: computeDistance, computeAzimuth, computeCoordinates", "libs/hdd/ellipsoid.h: Ellipsoid::isInside, HddEllipsoid::isInQuadrant", "libs/hdd/kdtree.h: KDTree search", "libs/hdd/clustering.cpp: selectNeighbouringEvents"]}
{"id": "C128", "title": "sclistorg lists the origins that were asked for", "statement": "For every database and command line, sclistorg writes one line for each event in the interval that was modified late enough and has one of the types given, in the order of the database, with the one origin asked for: among the origins of the event (or its preferred origin) that satisfy all conditions on mode, status, author, agency, method and area, the last, first, or that with the most or fewest phases or the largest or smallest RMS, the last one stored if several are equal. Events without such an origin have no line. The options are taken as written; the listing always reaches its end, and a command line that makes no sense is refused.", "quantifier": "all databases (events, origins, their fields set or not, any order), all values of all options", "why_tests_cant": "databases, orders of origins and combinations of options and missing fields are unbounded; there are no tests of this tool", "anchors": ["apps/sclistorg/sclistorg.py: EventList.init, EventList.run, EventList.findOrigin"]}
{"id": "C129", "title": "The list of sclistorg is a catalog for scrtdd", "statement": "The output of sclistorg, given to scrtdd as a catalog, is read as exactly the origins listed, in the same order, whatever the other columns contain (commas and quotes in the names of authors, agencies or methods included).", "quantifier": "all databases and options whose origin identifiers have no comma, quote or line break and whose other fields have no line break; all texts of numbers and times", "why_tests_cant": "the texts in a database are unbounded, and the writer does not quote them", "anchors": ["apps/sclistorg/sclistorg.py: EventList.run", "libs/hddsc/utils.cpp: addToCatalog(idFile)", "libs/hdd/csvreader.cpp: readWithHeader"]}
{"id": "C130", "title": "Events that are of no use can be left out of the catalog", "statement": "Whether or not a background catalog contains events which lie beyond the search distance (or the outermost ellipsoid) of an event, or share too few usable phases with it, the event gets the same neighbours with the same stations and phases. Likewise, when a whole catalog is relocated, a part of it to which the other events are of no use keeps the same events with the same neighbours as if the part was relocated alone.", "quantifier": "all catalogs and subsets of useless events, all search settings (nearest and ellipsoids), all builds of the index and orders of its heap, all orders of the hash maps", "why_tests_cant": "every additional event changes the shape of the index and the order of the search; catalogs and subsets are unbounded", "anchors": ["libs/hdd/clustering.cpp: selectNeighbouringEvents, selectNeighbouringEventsCatalog, createEventTree", "libs/hdd/kdtree.h: KDTree"]}
{"id": "C131", "title": "Single-event relocation depends on the useful data only, not on how they are stored", "statement": "Relocating an event against a background catalog returns the same event, after the same iterations with the same calls to the solver, whether or not the background contains events that are of no use to it, however the catalogs store their content, whatever index is built over the background and in whatever order the neighbours are selected. More generally a relocation of events visited in the same order does exactly the same for the same data however they are stored, also if events have to be restored, and fails in the same way if it fails.", "quantifier": "all catalogs with the same content, all subsets of useless events, all builds of the index and orders of its heap, all solvers, all correlation results, all numbers of iterations", "why_tests_cant": "the order of hash maps and the shape of the index are not under the control of a test; catalogs, subsets and numbers of iterations are unbounded", "anchors": ["libs/hdd/dd.cpp: DD::relocateSingleEvent, DD::relocate, DD::addObservations, DD::buildXCorrCache", "libs/hdd/clustering.cpp: selectNeighbouringEvents, Neighbours::toCatalog", "libs/hdd/catalog.cpp: Catalog::add, Catalog::addEvent, Catalog::fillProcessingInfo"]}
{"id": "C132", "title": "A part of a catalog is relocated as if it were all there is", "statement": "If no event of a part of the catalog is a neighbour of an event of the rest, nor the other way round, then no cluster contains events of both. Relocating the whole catalog then gives each event of the part the same location, time and picks, and each of its pairs the same correlation result, as relocating the part alone with its clusters, in whatever order the clusters of the rest come in between. A cluster is relocated in the same way by the same calls to the solver, and fails in the same way, with any two catalogs that agree on its events and their neighbours.", "quantifier": "all catalogs not marked by an earlier relocation, all parts, all neighbour lists and orders of clusters, all solvers and numbers of iterations, all known correlation results", "why_tests_cant": "catalogs, clusters and numbers of iterations are unbounded, and the order of the clusters depends on hash maps", "anchors": ["libs/hdd/dd.cpp: DD::relocateMultiEvents, DD::relocate, DD::buildXCorrCache", "libs/hdd/clustering.cpp: clusterizeNeighbouringEvents", "libs/hdd/catalog.cpp: Catalog::add, Catalog::addEvent"]}
{"id": "C133", "title": "The application has the settings its parameters ask for", "statement": "The application starts exactly if each of its own parameters has a value of the documented type and the parameters of every profile to load are acceptable. A parameter has the value given in the files of the user, or its documented default. Origins are relocated in real time if their evaluation mode is allowed, their author is in the list of accepted authors (if there is one) and their agency is not blocked. Memory of a profile is freed only after the time given, and never if it is negative.", "quantifier": "all configuration files, all origins, all profiles and times", "why_tests_cant": "the combinations of parameters and texts are unbounded", "anchors": ["apps/scrtdd/rtddtool.cpp: RTDD::validateParameters, RTDD::processOrigin, RTDD::checkProfileStatus", "apps/scrtdd/config/scrtdd.cfg", "apps/scrtdd/descriptions/scrtdd.xml"]}
{"id": "C134", "title": "A relocation does not depend on where on the globe it takes place", "statement": "On a round earth whose layers are the same everywhere, relocating a catalog whose events and stations are all turned by any angle about the axis, on the same or on the other side of the date line, with the same neighbours, gives the same result: the same events are returned, with the same times, depths, residuals and weights, at places turned by the same angle; in every iteration the solver is given the same data and answers the same. The same holds for any other map of places under which travel times, moves and distances stay the same, for multi-event and single-event relocation.", "quantifier": "all catalogs, clusters, options, maps of places, angles, travel-time tables that do not change under the map", "why_tests_cant": "tests use one region; the claim is about every region and every amount, over all iterations", "anchors": ["libs/hdd/dd.cpp: DD::relocate, DD::addObservations, DD::addObservationParams, DD::updateRelocatedEvents, DD::relocateMultiEvents, DD::relocateEventSingleStep", "libs/hdd/solver.cpp: Solver::prepare, Solver::solve", "libs/hdd/utils.cpp: computeCoordinates"]}
{"id": "C135", "title": "The numbers of the events do not matter", "statement": "Relocating a catalog whose events have other numbers in the same order, with the same clusters and the same correlation results under the new numbers, gives the same result under the new numbers: the same correlations are done, the same events are restored, the solver is given the same data and answers the same, the same events and phases are returned with the same places, times, residuals and weights; if the relocation fails it fails with the new numbers too. The neighbours selected and the clusters found are the same too, if the hash maps are visited in the same order. The same holds for single-event relocation. No two numberings give different results, larger or smaller, with or without gaps.", "quantifier": "all catalogs, clusters, correlation results, options, solvers of the code, and all pairs of numberings with the same order", "why_tests_cant": "tests use a few numberings; the numbers are used as keys of nine containers and as text in the keys of observations, over all iterations", "anchors": ["libs/hdd/dd.cpp: DD::relocate, DD::addObservations, DD::addObservationParams, DD::updateRelocatedEvents, DD::buildXCorrCache, DD::relocateMultiEvents, DD::findClusters", "libs/hdd/clustering.cpp: selectNeighbouringEvents, selectNeighbouringEventsCatalog, clusterizeNeighbouringEvents", "libs/hdd/solver.cpp: Solver::addObservation, Solver::addObservationParams, Solver::prepare, Solver::getEventChanges, Solver::isEventPhaseUsed, Solver::getDoubleDifferences", "libs/hdd/index.h: IdToIndex", "libs/hdd/xcorrcache.h: XCorrCache"]}
{"id": "C136", "title": "Only the ratio of the weights matters", "statement": "With LSMR (the default) and L2 normalisation, multiplying the weights of all picks by the same positive factor does not change a relocation: the solver is told the same except for the weights, fails or not alike and answers the same, and the same events with the same places, times and residuals are returned; the weights of the phases are multiplied. In particular, if all picks of a catalog have the same class weight, it makes no difference whether pick uncertainties are used.", "quantifier": "all catalogs, clusters, correlation results, class weights, positive factors, damping factors, numbers of iterations, constraints and down-weighting options", "why_tests_cant": "tests use a few catalogs; the factor passes through the norms, rotations and stopping rules of every step of LSMR and through every iteration of the relocation", "anchors": ["libs/hdd/dd.cpp: DD::addObservations, DD::computeEventResiduals, DD::relocate, DD::relocateMultiEvents", "libs/hdd/solver.cpp: Solver::prepare, Adapter::L2normalize, Solver::_solve", "libs/hdd/3rd-party/lsqr-lsmr/lsmr.cpp: Solve"]}
{"id": "C137", "title": "The corrections are proportional to the residuals", "statement": "Solving a double-difference system whose residuals are all multiplied by a factor other than zero gives, with LSMR, the corrections multiplied by that factor, after the same number of steps, with the same stopping reason, and is rejected or not alike, with and without L2 normalisation and for every damping factor. With LSQR and LSMR residuals of the other sign give corrections of the other sign.", "quantifier": "all double-difference systems, weights, factors other than zero, damping factors and limits of the iterations", "why_tests_cant": "tests use a few systems; the factor passes through the norms, rotations and stopping rules of every step of the iterative solver", "anchors": ["libs/hdd/solver.cpp: Adapter, Solver::_solve", "libs/hdd/3rd-party/lsqr-lsmr/lsmr.cpp: Solve", "libs/hdd/3rd-party/lsqr-lsmr/lsqr.cpp: Solve"]}
