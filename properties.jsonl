{"id": "C01", "title": "Barycenter is never stale", "statement": "After any history of setPose, setPoints, getPose, getPoints and getBarycenterPose calls on a Scan, getBarycenterPose returns the image, under the pose set last, of the arithmetic mean of the points set last (the pose itself if there are no points), with the pose's heading; getPose/getPoints return what was set last and getId never changes.", "quantifier": "all finite call histories, all poses and point lists", "why_tests_cant": "The result is cached behind a dirty flag; staleness only shows for particular call orders, of which a test samples a handful.", "anchors": ["src/scan.cpp:Scan::update", "src/scan.cpp:Scan::getBarycenterPose", "src/scan.cpp:Scan::setPose", "src/scan.cpp:Scan::setPoints", "include/ndt_2d/scan.hpp"]}
{"id": "C02", "title": "Incremental cell statistics equal batch statistics", "statement": "After adding any points, one by one, to an empty Cell, its count, mean and (upper triangle of the) correlation equal the count, arithmetic mean and mean of products of those points, and do not depend on the order of insertion.", "quantifier": "all finite point sequences and all their permutations", "why_tests_cant": "The running update is recursive; correctness needs induction over the number of points.", "anchors": ["src/ndt_model.cpp:Cell::addPoint", "include/ndt_2d/ndt_model.hpp:Cell"]}
{"id": "C03", "title": "Cell covariance is the sample covariance whatever the add/compute history", "statement": "After any interleaving of addPoint and compute calls that ends in compute, with at least three points, the cell's covariance is the unbiased sample covariance of all the points added: symmetric, positive semi-definite, the same as if everything had been added first and compute called once; with fewer than three points covariance and information are still zero.", "quantifier": "all finite interleavings of addPoint/compute", "why_tests_cant": "The valid flag caches the result: only particular interleavings can expose a stale covariance.", "anchors": ["src/ndt_model.cpp:Cell::compute", "src/ndt_model.cpp:Cell::addPoint"]}
{"id": "C04", "title": "Cell score is a likelihood", "statement": "For a computed cell holding at least five points that are not all the same point, score is a real number in (0,1], equals 1 at the cell's mean, and is symmetric about the mean; with fewer than five points it is exactly 0.", "quantifier": "all cell contents and all query points", "why_tests_cant": "Positive semi-definiteness of the (possibly clamped) information matrix must hold for every point cloud.", "anchors": ["src/ndt_model.cpp:Cell::score", "src/ndt_model.cpp:Cell::compute"]}
{"id": "C05", "title": "A computed cell never answers NaN", "statement": "Score of a computed cell is a number between 0 and 1 for every content of the cell, including repeated identical points.", "quantifier": "all cell contents, all query points", "why_tests_cant": "Degenerate point clouds are a measure-zero set that sampled tests do not hit; the claim is about all of them.", "anchors": ["src/ndt_model.cpp:Cell::compute", "src/ndt_model.cpp:Cell::score"]}
{"id": "C06", "title": "NDT indexing is memory safe and exact", "statement": "For every NDT and every query point, the looked up cell either does not exist (and the query scores 0 / the point is dropped) or is a cell of the grid; it exists exactly when the point lies in the grid's half-open extents, and two points share a cell exactly when they lie in the same square.", "quantifier": "all grid geometries and all points", "why_tests_cant": "Boundary arithmetic: infinitely many grids and points, off-by-one errors live on measure-zero boundaries.", "anchors": ["src/ndt_model.cpp:NDT::getIndex", "src/ndt_model.cpp:NDT::NDT"]}
{"id": "C07", "title": "Adding scans distributes every in-range point exactly once", "statement": "After adding any scans, each cell holds exactly the map-frame points that lie in its square: per-cell statistics equal the batch statistics of those points, the total count equals the number of points inside the extents, and the order of the scans does not matter.", "quantifier": "all lists of scans, all grids", "why_tests_cant": "Needs induction over scans and points and an argument per cell.", "anchors": ["src/ndt_model.cpp:NDT::addScan", "src/ndt_model.cpp:NDT::getIndex", "src/ndt_model.cpp:Cell::addPoint"]}
{"id": "C08", "title": "A cell's mean lies in the cell", "statement": "The mean of every non-empty cell of an NDT built from any scans lies inside that cell's square.", "quantifier": "all grids, all scan histories, all cells", "why_tests_cant": "Convexity argument over unboundedly many points.", "anchors": ["src/ndt_model.cpp:NDT::addScan", "src/ndt_model.cpp:Cell::addPoint"]}
{"id": "C09", "title": "Likelihood of a point set is a bounded sum", "statement": "On a computed NDT with no cell of five or more identical points, likelihood of a list of points is between 0 and the number of points, is independent of the order of the points, is 0 for points outside the extents, and the likelihood of a scan equals the likelihood of its points moved by its pose.", "quantifier": "all NDTs, all point lists, all poses", "why_tests_cant": "Unbounded lists; boundary points; agreement of two separately written transforms.", "anchors": ["src/ndt_model.cpp:NDT::likelihood", "include/ndt_2d/conversions.hpp:toEigen"]}
{"id": "C10", "title": "Cell information matrix is symmetric, positive semi-definite and conditioned", "statement": "For a computed cell with at least three points, not all identical, the information matrix is symmetric positive semi-definite; it is the inverse of the covariance when the smaller eigenvalue is at least 0.001 of the larger and otherwise its largest eigenvalue is exactly 1000 divided by the larger covariance eigenvalue.", "quantifier": "all cell contents", "why_tests_cant": "Depends on eigenvalues of arbitrary covariances including the exact threshold.", "anchors": ["src/ndt_model.cpp:Cell::compute"]}
{"id": "C11", "title": "No in-range measurement falls outside the matcher's NDT", "statement": "After addScans over a non-empty set of scans, every point whose distance from its scan's robot pose is at most range_max lands in a cell of the internal NDT.", "quantifier": "all scan lists, poses and points", "why_tests_cant": "Bounding box initialisation with extreme sentinel values matters only for special signs of coordinates.", "anchors": ["src/scan_matcher_ndt.cpp:ScanMatcherNDT::addScans", "src/ndt_model.cpp:NDT::NDT", "src/ndt_model.cpp:NDT::getIndex"]}
{"id": "C12", "title": "Subsampling picks distinct valid beams", "statement": "The beams used for scoring are min(laser_max_beams, number of points) many, have valid and strictly increasing indices starting at 0, and are all the points when there are no more points than laser_max_beams.", "quantifier": "all point counts and all beam limits", "why_tests_cant": "Index arithmetic i*(n/m) for all n, m.", "anchors": ["src/scan_matcher_ndt.cpp:ScanMatcherNDT::matchScan", "src/scan_matcher_ndt.cpp:ScanMatcherNDT::scorePoints"]}
{"id": "C13", "title": "matchScan returns the best candidate of its search grid", "statement": "The score returned is the least normalised score over all candidate offsets of the search grid and zero, the offset returned attains it, and when no candidate scores better than zero the caller's pose is left unchanged.", "quantifier": "all maps, scans, search parameters", "why_tests_cant": "Optimality over all candidates for every map.", "anchors": ["src/scan_matcher_ndt.cpp:ScanMatcherNDT::matchScan"]}
{"id": "C14", "title": "Corrections stay inside the search window", "statement": "Every correction written by matchScan satisfies -size <= d < size componentwise (linear and angular), and lies on the grid -size + k*resolution.", "quantifier": "all maps, scans, search parameters", "why_tests_cant": "Loop bounds with real step; all parameter values.", "anchors": ["src/scan_matcher_ndt.cpp:ScanMatcherNDT::matchScan"]}
{"id": "C15", "title": "Matching never makes the score worse", "statement": "When the window sizes are whole multiples of the resolutions, the score returned by matchScan is at most the score scoreScan reports for the uncorrected scan against the same map.", "quantifier": "all maps, all scans, all such parameters", "why_tests_cant": "Needs agreement of two separately coded scoring paths and exhaustive optimality.", "anchors": ["src/scan_matcher_ndt.cpp:ScanMatcherNDT::matchScan", "src/scan_matcher_ndt.cpp:ScanMatcherNDT::scoreScan", "src/scan_matcher_ndt.cpp:ScanMatcherNDT::scorePoints"]}
{"id": "C16", "title": "Match covariance is the score-weighted covariance of the offsets", "statement": "The covariance written by matchScan is symmetric positive semi-definite and equals the covariance (second moment minus outer product of the mean, as in Olson 2009) of the search offsets weighted by their scores.", "quantifier": "all maps and scans with some overlap", "why_tests_cant": "Algebraic identity over all score landscapes.", "anchors": ["src/scan_matcher_ndt.cpp:ScanMatcherNDT::matchScan"]}
{"id": "C17", "title": "A matcher without a map is inert", "statement": "Before addScans and after reset, matchScan returns 0 and leaves pose untouched and scoreScan/scorePoints return 0, for every history of calls.", "quantifier": "all call histories", "why_tests_cant": "History property of a lazily created object.", "anchors": ["src/scan_matcher_ndt.cpp:ScanMatcherNDT::reset", "src/scan_matcher_ndt.cpp:ScanMatcherNDT::matchScan", "src/scan_matcher_ndt.cpp:ScanMatcherNDT::scorePoints"]}
{"id": "C18", "title": "Scores are normalised", "statement": "scoreScan, scorePoints and matchScan return a number in [-1, 0] for every scan, so that they can be compared with each other and with the running typical response.", "quantifier": "all maps, scans, poses", "why_tests_cant": "Includes empty scans and arbitrary maps.", "anchors": ["src/scan_matcher_ndt.cpp:ScanMatcherNDT::matchScan", "src/scan_matcher_ndt.cpp:ScanMatcherNDT::scorePoints"]}
{"id": "C19", "title": "Leaf count is the number of occupied bins", "statement": "After any sequence of insertions into the KD-tree, getLeafCount is the number of distinct discretised keys inserted since the last clear, whatever the insertion order.", "quantifier": "all insertion sequences and permutations", "why_tests_cant": "The tree shape depends on the order; correctness needs a search-tree invariant.", "anchors": ["include/ndt_2d/kd_tree.hpp:KDTree::insert", "include/ndt_2d/kd_tree.hpp:KDTree::_insert"]}
{"id": "C20", "title": "KD-tree leaves accumulate weight per bin", "statement": "After any sequence of insertions every leaf holds exactly the sum of the weights inserted under its key, so the total over leaves is the total inserted.", "quantifier": "all insertion sequences", "why_tests_cant": "Leaf values move when leaves are split; needs an invariant over all shapes.", "anchors": ["include/ndt_2d/kd_tree.hpp:KDTree::_insert"]}
{"id": "C21", "title": "Particle count stays within its limits", "statement": "From construction on, after any history of init, update, measure and resample, the filter holds at least min(min_particles,max_particles) and at most max(min_particles,max_particles) particles, as many weights as particles, and resample terminates and yields at most max_particles.", "quantifier": "all histories, all random draws, all parameters", "why_tests_cant": "Adaptive stopping rule driven by random draws.", "anchors": ["src/particle_filter.cpp:ParticleFilter::resample", "src/particle_filter.cpp:ParticleFilter::ParticleFilter", "src/particle_filter.cpp:ParticleFilter::init"]}
{"id": "C22", "title": "Weights form a probability distribution", "statement": "After every public operation the weights are non-negative and sum to one.", "quantifier": "all histories, all matcher responses", "why_tests_cant": "Scores are negative numbers normalised by their (negative) sum; the degenerate all-zero case is not sampled.", "anchors": ["src/particle_filter.cpp:ParticleFilter::updateStatistics", "src/particle_filter.cpp:ParticleFilter::measure"]}
{"id": "C23", "title": "Mean and position covariance are those of the weighted particles", "statement": "When the weights are a distribution, getMean's position is the weighted mean and so lies in every axis-aligned box containing the particles, its heading is a circular mean in (-pi, pi], and the x/y block of getCovariance is the weighted covariance: symmetric and positive semi-definite.", "quantifier": "all particle sets and weights", "why_tests_cant": "Algebra over unboundedly many particles.", "anchors": ["src/particle_filter.cpp:ParticleFilter::updateStatistics"]}
{"id": "C24", "title": "Heading variance describes the current particles", "statement": "getCovariance()(2,2) is the weighted mean squared angular distance of the current particles from the mean heading, independent of how many updates happened before.", "quantifier": "all operation histories", "why_tests_cant": "Accumulation bugs only show over histories.", "anchors": ["src/particle_filter.cpp:ParticleFilter::updateStatistics", "include/ndt_2d/particle_filter.hpp:cov_"]}
{"id": "C25", "title": "Resampling draws from the particles and stops by the KLD bound", "statement": "Every particle after resample is one of the particles before it; if fewer than max_particles were drawn then at least min_particles were, and at least as many as the KLD bound demands for the number of occupied bins.", "quantifier": "all draws, particle sets, KLD parameters", "why_tests_cant": "Quantifies over every outcome of the random source.", "anchors": ["src/particle_filter.cpp:ParticleFilter::resample", "include/ndt_2d/kd_tree.hpp:KDTree"]}
{"id": "C26", "title": "Resampling does not count the measurement twice", "statement": "After resample the surviving particles are equally weighted, the measurement being already expressed in how often each was drawn.", "quantifier": "all draws and weights", "why_tests_cant": "A statistical bias is invisible to tolerance based tests.", "anchors": ["src/particle_filter.cpp:ParticleFilter::resample"]}
{"id": "C27", "title": "Particle cloud message is faithful", "statement": "getMsg emits one pose per particle in order, with its position, and a unit planar quaternion whose yaw equals the particle's heading modulo 2*pi.", "quantifier": "all particle sets", "why_tests_cant": "All angles, including the wrap.", "anchors": ["src/particle_filter.cpp:ParticleFilter::getMsg", "include/ndt_2d/conversions.hpp:fromMsg"]}
{"id": "C28", "title": "Noise-free motion is rigid composition", "statement": "When the three samples equal their means, sample moves every pose by exactly the commanded robot-frame motion (for translations above 1 cm; below, by the same distance along the heading), and headings end normalised to (-pi, pi].", "quantifier": "all poses, all motions", "why_tests_cant": "Trigonometric identity over all inputs; threshold branch.", "anchors": ["src/motion_model.cpp:MotionModel::sample"]}
{"id": "C29", "title": "Motion noise model is well defined", "statement": "With non-negative coefficients all three standard deviations are real, vanish without motion, and driving backwards along the same line yields the same noise as driving forwards (first rotation magnitude at most pi/2).", "quantifier": "all motions and coefficients", "why_tests_cant": "All real inputs incl. the reverse branch.", "anchors": ["src/motion_model.cpp:MotionModel::sample"]}
{"id": "C30", "title": "Solver angle normalisation", "statement": "NormalizeAngle returns the unique angle in [-pi, pi) congruent to its argument modulo 2*pi; it is idempotent and 2*pi-periodic.", "quantifier": "all real angles", "why_tests_cant": "All reals.", "anchors": ["include/ndt_2d/ceres_solver_pose.hpp:NormalizeAngle"]}
{"id": "C31", "title": "A constraint reproduces the relative pose", "statement": "Composing the pose of the first scan with the constraint made from two scans gives exactly the pose of the second; the constraint names the two scan ids in order and is not switchable.", "quantifier": "all pairs of scans", "why_tests_cant": "All poses.", "anchors": ["src/constraint.cpp:makeConstraint"]}
{"id": "C32", "title": "Residuals vanish at creation and are frame independent", "statement": "The pose-graph error of a freshly made constraint at the poses it was made from is zero, and moving both poses by one common rigid motion never changes the error of any constraint.", "quantifier": "all poses, constraints, rigid motions", "why_tests_cant": "All reals; invariance under a group.", "anchors": ["include/ndt_2d/ceres_solver_pose.hpp:PoseGraph2dErrorTerm::operator()", "src/constraint.cpp:makeConstraint"]}
{"id": "C33", "title": "Information is the inverse of covariance", "statement": "For every invertible covariance the constraint's information times the covariance is the identity; positive definite covariance gives positive definite information.", "quantifier": "all 3x3 covariances", "why_tests_cant": "All matrices.", "anchors": ["src/constraint.cpp:makeConstraint"]}
{"id": "C34", "title": "Optimised cost is the Mahalanobis distance", "statement": "The squared norm of the weighted residual handed to the solver equals e^T * information * e, for the unweighted error e and the constraint's information.", "quantifier": "all symmetric positive definite information matrices, all errors", "why_tests_cant": "Only visible for correlated information matrices.", "anchors": ["src/ceres_solver.cpp:CeresSolver::addConstraint", "include/ndt_2d/ceres_solver_pose.hpp:PoseGraph2dErrorTerm::operator()"]}
{"id": "C35", "title": "A failed optimisation leaves the map alone", "statement": "If optimize returns false no scan pose has changed; if it returns true every scan has the pose the solver computed for its id.", "quantifier": "all graphs, all solver outcomes, all call histories", "why_tests_cant": "Failure of the numerical solver cannot be provoked at will in a unit test.", "anchors": ["src/ceres_solver.cpp:CeresSolver::optimize"]}
{"id": "C36", "title": "Each constraint enters the problem exactly once", "statement": "Over any sequence of optimize calls on a growing graph, the residual blocks of the problem are the constraints in order, each once, attached to the parameter blocks of its two scans.", "quantifier": "all growth histories", "why_tests_cant": "Incremental bookkeeping across calls.", "anchors": ["src/ceres_solver.cpp:CeresSolver::optimize", "src/ceres_solver.cpp:CeresSolver::addConstraint"]}
{"id": "C37", "title": "The first scan anchors the map", "statement": "optimize never changes the pose of the first scan and always optimises from the current scan poses.", "quantifier": "all graphs, all solver outcomes", "why_tests_cant": "All solver outcomes.", "anchors": ["src/ceres_solver.cpp:CeresSolver::optimize"]}
{"id": "C38", "title": "Saving and loading a graph is lossless", "statement": "Loading what save wrote yields the same scans (id, pose, points) and constraints (ends, transform, information, switchable) in the same order, for every interleaving in which the bag returns the two topics' messages.", "quantifier": "all graphs, all topic interleavings", "why_tests_cant": "All sizes and contents.", "anchors": ["src/graph.cpp:Graph::save", "src/graph.cpp:Graph::Graph", "msg/Scan.msg", "msg/Constraint.msg"]}
{"id": "C39", "title": "findNearest returns exactly the near scans, nearest first", "statement": "findNearest returns, without repetition and ordered by distance, exactly the indices below the limit whose reference point is within the search threshold of the query; never an index at or above the limit or the graph size.", "quantifier": "all graphs, queries, thresholds, limits", "why_tests_cant": "All configurations incl. ties and limits.", "anchors": ["src/graph.cpp:Graph::findNearest", "include/ndt_2d/graph.hpp:GraphAdapter"]}
{"id": "C40", "title": "The search distance is in metres", "statement": "A scan is returned by findNearest exactly when its Euclidean distance from the query is less than dist.", "quantifier": "all graphs, queries, distances", "why_tests_cant": "A squared/unsquared mix-up agrees with the intended meaning at distance 1 and for generous tests.", "anchors": ["src/graph.cpp:Graph::findNearest", "include/ndt_2d/graph.hpp:Graph::findNearest"]}
{"id": "C41", "title": "Graph markers mirror the graph", "statement": "The marker message contains one node marker per scan at its pose with the scan's id, then one edge marker per constraint joining the poses of its two scans, green if switchable and blue otherwise, with distinct ids within each namespace.", "quantifier": "all graphs with valid constraint ends", "why_tests_cant": "A marker object is reused across iterations; state leakage depends on the sequence.", "anchors": ["src/graph.cpp:Graph::getMsg"]}
{"id": "C42", "title": "Occupancy rendering never leaves the grid", "statement": "Rendering any scans into the grid message touches only cells inside the grid.", "quantifier": "all histories of calls with all scans", "why_tests_cant": "Out-of-bounds writes depend on geometry and call history.", "anchors": ["src/occupancy_grid.cpp:OccupancyGrid::getMsg", "src/occupancy_grid.cpp:OccupancyGrid::updateBounds"]}
{"id": "C43", "title": "Ray tracing terminates on an 8-connected path inside the box of its ends", "statement": "For any start and end cell the ray loop stops after at most |dx|+|dy|+1 iterations, consecutive cells are 8-neighbours, all cells lie in the bounding box of the ends, no cell is visited twice, and exactly one hit is recorded per ray.", "quantifier": "all integer start and end cells", "why_tests_cant": "Loop termination and geometry for all integers.", "anchors": ["src/occupancy_grid.cpp:OccupancyGrid::getMsg"]}
{"id": "C44", "title": "The hit is recorded in the cell of the measured point", "statement": "Each ray marks as hit exactly the cell containing its measured end point, and no cell before it.", "quantifier": "all start and end cells", "why_tests_cant": "One octant misbehaves only for particular slopes.", "anchors": ["src/occupancy_grid.cpp:OccupancyGrid::getMsg"]}
{"id": "C45", "title": "Cell values follow the hit ratio", "statement": "Each cell of the message is -1 if no ray touched it, 100 if the share of touches that were hits exceeds occ_thresh, and 0 otherwise; the data length is width*height and the result does not depend on the order of scans or points.", "quantifier": "all scan lists, thresholds", "why_tests_cant": "All accumulations.", "anchors": ["src/occupancy_grid.cpp:OccupancyGrid::getMsg"]}
{"id": "C46", "title": "Grid bounds cover all rendered points", "statement": "At every call of getMsg the grid's extents contain all points of all scans being rendered, and extents never shrink.", "quantifier": "all call histories, including pose changes between calls and a replaced graph", "why_tests_cant": "Cached bounds are refreshed only when the number of scans changes.", "anchors": ["src/occupancy_grid.cpp:OccupancyGrid::updateBounds", "src/occupancy_grid.cpp:OccupancyGrid::getMsg"]}
{"id": "C47", "title": "Only valid beams become points", "statement": "Exactly the beams whose range is a number not above range_max become points of the scan, in beam order, and no beam is read outside the message.", "quantifier": "all laser messages", "why_tests_cant": "All range vectors incl. NaN, infinities and empty.", "anchors": ["src/ndt_mapper.cpp:Mapper::laserCallback"]}
{"id": "C48", "title": "Beams are projected through the laser mounting", "statement": "With no motion during the scan, each point is the polar beam (mirrored for an inverted laser) moved by the robot-to-laser transform; its distance from the laser is |range|.", "quantifier": "all messages, mountings", "why_tests_cant": "All reals.", "anchors": ["src/ndt_mapper.cpp:Mapper::laserCallback"]}
{"id": "C49", "title": "Motion compensation expresses each point in the robot frame at scan start", "statement": "Each compensated point equals the beam's point as seen from the robot frame at the start of the scan, for the interpolated robot motion, whatever the robot's heading in the odometry frame.", "quantifier": "all motions, headings incl. the +-pi wrap", "why_tests_cant": "Only visible when turning across +-pi or driving at a heading.", "anchors": ["src/ndt_mapper.cpp:Mapper::laserCallback"]}
{"id": "C50", "title": "No map change before localisation", "statement": "After mapping is disabled, or a map is loaded, laser scans change neither graph nor poses until an initial pose has been accepted.", "quantifier": "all callback histories", "why_tests_cant": "Protocol over all histories.", "anchors": ["src/ndt_mapper.cpp:Mapper::configure", "src/ndt_mapper.cpp:Mapper::poseCallback", "src/ndt_mapper.cpp:Mapper::laserCallback"]}
{"id": "C51", "title": "Scans without sufficient travel are ignored", "statement": "With a non-empty graph, a scan is processed only if the robot moved at least minimum_travel_distance or turned at least minimum_travel_rotation since the last processed scan; otherwise nothing changes.", "quantifier": "all states and odometry poses", "why_tests_cant": "All reals incl. angle wrap.", "anchors": ["src/ndt_mapper.cpp:Mapper::laserCallback"]}
{"id": "C52", "title": "Odometry propagation preserves the map-to-odom transform", "statement": "The predicted pose of a new scan is the previous robot pose moved by the odometry increment, so that with zero correction the published map-to-odom transform does not change.", "quantifier": "all poses", "why_tests_cant": "Trigonometric identity over all inputs.", "anchors": ["src/ndt_mapper.cpp:Mapper::laserCallback", "src/ndt_mapper.cpp:Mapper::mapPublishThread"]}
{"id": "C53", "title": "Published transform is consistent", "statement": "The published map-to-odom transform composed with the last odometry pose is the last robot pose.", "quantifier": "all poses", "why_tests_cant": "All reals.", "anchors": ["src/ndt_mapper.cpp:Mapper::mapPublishThread", "include/ndt_2d/conversions.hpp:toEigen"]}
{"id": "C54", "title": "Configure flags", "statement": "For every action word, enabling wins over disabling and loading over saving, unrelated bits do nothing, disabling or loading requires relocalisation, and saving never changes the mapper.", "quantifier": "all 32-bit action words, all states", "why_tests_cant": "All combinations in all states.", "anchors": ["src/ndt_mapper.cpp:Mapper::configure", "srv/Configure.srv"]}
{"id": "C55", "title": "Scan ids are graph indices", "statement": "In every reachable state of the mapper started from an empty or well-formed loaded graph, the i-th scan of the graph has id i.", "quantifier": "all callback histories and thread schedules", "why_tests_cant": "History property; solver and markers rely on it.", "anchors": ["src/ndt_mapper.cpp:Mapper::laserCallback", "src/ndt_mapper.cpp:Mapper::poseCallback", "src/ceres_solver.cpp:CeresSolver::addConstraint"]}
{"id": "C56", "title": "The pose graph stays connected", "statement": "In every state between callbacks every scan but the first is the end of a constraint that begins at an earlier scan, so that every scan is linked to the first.", "quantifier": "all callback histories", "why_tests_cant": "Induction over histories.", "anchors": ["src/ndt_mapper.cpp:Mapper::laserCallback", "src/ndt_mapper.cpp:Mapper::poseCallback"]}
{"id": "C57", "title": "The local map is the last rolling_depth scans", "statement": "A new scan is matched against exactly the last min(rolling_depth, number of scans) scans.", "quantifier": "all graph sizes and all rolling_depth values", "why_tests_cant": "Needs all parameter values; default value hides a constant.", "anchors": ["src/ndt_mapper.cpp:Mapper::laserCallback", "README.md:rolling_depth"]}
{"id": "C58", "title": "Typical matcher response stays meaningful", "statement": "The running typical response always is a number between -1 and 0, so that loop closure stays possible.", "quantifier": "all histories of match scores", "why_tests_cant": "Poisoning by a single bad scan happens only in particular histories.", "anchors": ["src/ndt_mapper.cpp:Mapper::laserCallback", "src/ndt_mapper.cpp:Mapper::loopClosureThread"]}
{"id": "C59", "title": "Loop closures never join scans of one rolling window", "statement": "Every loop closure constraint is switchable, begins at an earlier scan more than rolling_depth before its end, and was accepted with a finite score below the typical response.", "quantifier": "all histories and schedules", "why_tests_cant": "Depends on counters across thread iterations.", "anchors": ["src/ndt_mapper.cpp:Mapper::loopClosureThread", "src/graph.cpp:Graph::findNearest"]}
{"id": "C60", "title": "Each new scan is loop-closed once, against at most global_search_limit candidates", "statement": "While the graph only grows, the loop closure thread considers scans in order, each at most once, none before index rolling_depth+1, with at most global_search_limit matching attempts each.", "quantifier": "all histories, schedules and limits", "why_tests_cant": "Counters across thread iterations; wrap-around of the limit.", "anchors": ["src/ndt_mapper.cpp:Mapper::loopClosureThread"]}
{"id": "C61", "title": "Optimiser runs are spaced by optimization_node_limit", "statement": "Between two runs of the optimiser more than optimization_node_limit scans were added.", "quantifier": "all histories incl. map loading", "why_tests_cant": "Unsigned subtraction over histories.", "anchors": ["src/ndt_mapper.cpp:Mapper::loopClosureThread"]}
{"id": "C62", "title": "Localisation does not alter the map", "statement": "While mapping is disabled or the particle filter is in use, no callback or thread changes scans, poses of scans, or constraints.", "quantifier": "all histories and schedules", "why_tests_cant": "History property.", "anchors": ["src/ndt_mapper.cpp:Mapper::laserCallback", "src/ndt_mapper.cpp:Mapper::loopClosureThread", "README.md:use_particle_filter"]}
{"id": "C63", "title": "Constraint ends are valid whenever the graph lock is free", "statement": "Whenever any thread can take the graph lock, every constraint's ends are indices of existing scans (so that the optimiser and the marker publisher never index out of range).", "quantifier": "all thread schedules", "why_tests_cant": "A race window of a few instructions.", "anchors": ["src/ndt_mapper.cpp:Mapper::laserCallback", "src/ndt_mapper.cpp:Mapper::loopClosureThread", "src/ndt_mapper.cpp:Mapper::mapPublishThread", "src/graph.cpp:Graph::getMsg"]}
{"id": "C64", "title": "No map update is lost by the publisher", "statement": "For every schedule, once a callback or loop closure that announced an update has finished, either an update is still pending or the last published map was rendered from a graph that contains it.", "quantifier": "all thread schedules", "why_tests_cant": "Lost-update races.", "anchors": ["src/ndt_mapper.cpp:Mapper::mapPublishThread", "src/ndt_mapper.cpp:Mapper::laserCallback"]}
{"id": "C65", "title": "The three threads cannot deadlock on the mutexes", "statement": "In every reachable state, a thread waiting for a mutex holds none, so some thread that holds or wants a mutex can proceed.", "quantifier": "all thread schedules", "why_tests_cant": "Deadlocks depend on schedules.", "anchors": ["src/ndt_mapper.cpp:Mapper::laserCallback", "src/ndt_mapper.cpp:Mapper::loopClosureThread", "src/ndt_mapper.cpp:Mapper::mapPublishThread"]}
{"id": "C66", "title": "Loop closure waits for its matcher", "statement": "The loop closure thread uses the global scan matcher only after the first laser scan created it.", "quantifier": "all histories, schedules, loaded maps", "why_tests_cant": "Startup race with a loaded map.", "anchors": ["src/ndt_mapper.cpp:Mapper::loopClosureThread", "src/ndt_mapper.cpp:Mapper::Mapper"]}
{"id": "C67", "title": "Loading a map starts from a clean slate", "statement": "After a map is loaded, solver bookkeeping, grid bounds and loop closure counters refer to the loaded graph, as they would in a fresh process.", "quantifier": "all histories", "why_tests_cant": "History property.", "anchors": ["src/ndt_mapper.cpp:Mapper::configure", "src/ceres_solver.cpp:CeresSolver::optimize", "src/occupancy_grid.cpp:OccupancyGrid::updateBounds"]}
{"id": "C68", "title": "The loop closure thread stays within the graph", "statement": "The loop closure thread never indexes the scans of the graph out of range and never follows a pointer to a scan that no longer exists.", "quantifier": "all histories and schedules, including maps loaded at run time", "why_tests_cant": "Needs a load between two critical sections of another thread.", "anchors": ["src/ndt_mapper.cpp:Mapper::loopClosureThread", "src/ndt_mapper.cpp:Mapper::configure", "src/graph.cpp:Graph::findNearest"]}
{"id": "C69", "title": "Shared members are never accessed concurrently without a lock", "statement": "No two threads are ever at places of which one writes and the other accesses the same member of the mapper without holding a common mutex.", "quantifier": "all thread schedules", "why_tests_cant": "Data races are undefined behaviour and depend on schedules.", "anchors": ["src/ndt_mapper.cpp:Mapper::laserCallback", "src/ndt_mapper.cpp:Mapper::poseCallback", "src/ndt_mapper.cpp:Mapper::configure", "src/ndt_mapper.cpp:Mapper::loopClosureThread", "src/ndt_mapper.cpp:Mapper::mapPublishThread"]}
{"id": "C70", "title": "The published transform comes from poses that belong together", "statement": "Every published map-to-odom transform is that of a robot pose and an odometry pose that were stored together.", "quantifier": "all histories and schedules", "why_tests_cant": "A torn pair is visible only between two assignments.", "anchors": ["src/ndt_mapper.cpp:Mapper::mapPublishThread", "src/ndt_mapper.cpp:Mapper::poseCallback", "src/ndt_mapper.cpp:Mapper::laserCallback"]}
{"id": "C71", "title": "Destroying the node ends", "statement": "The destructor of the mapper returns: both threads it waits for end.", "quantifier": "all histories, schedules of the two threads and the owner of the node", "why_tests_cant": "A test process exits through shutdown; a component container that unloads the node does not.", "anchors": ["src/ndt_mapper.cpp:Mapper::~Mapper", "src/ndt_mapper.cpp:Mapper::mapPublishThread", "src/ndt_mapper.cpp:Mapper::loopClosureThread"]}
{"id": "C72", "title": "A candidate is matched together with its neighbours on both sides", "statement": "For every loop closure candidate, the map that the newest scan is matched against consists of the candidate, the scan before it and the scan after it, as the comment in the code says.", "quantifier": "all reachable states, schedules, candidates", "why_tests_cant": "Needs the region built for every candidate; a run only shows scores.", "anchors": ["src/ndt_mapper.cpp:Mapper::loopClosureThread"]}
{"id": "C73", "title": "While localising, scans are matched against the whole map", "statement": "Whenever mapping is off, the matcher a scan is matched with holds all scans of the graph.", "quantifier": "all histories", "why_tests_cant": "Depends on the order of configure requests, loop closure and the first laser message.", "anchors": ["src/ndt_mapper.cpp:Mapper::laserCallback", "src/ndt_mapper.cpp:Mapper::configure", "src/ndt_mapper.cpp:Mapper::loopClosureThread"]}
{"id": "C74", "title": "Localising never runs into undefined behaviour for lack of a map", "statement": "A node that is to localise (mapping disabled, or with a particle filter) processes its first laser message without undefined behaviour, whatever scans the map holds; in particular when it holds none.", "quantifier": "all parameters, all laser messages, all maps", "why_tests_cant": "Starting in localisation mode without a map is a misconfiguration that tests do not cover, and the undefined conversion usually yields some number silently.", "anchors": ["src/ndt_mapper.cpp:296-305", "src/scan_matcher_ndt.cpp:49-74"]}
{"id": "C75", "title": "Scan matching never moves a pose by more than the search window", "statement": "Local matching, localisation and every accepted loop closure move the pose of the scan by at most the search sizes in x, y and heading, in every execution of the node; local matching and localisation leave scans and constraints of the graph alone.", "quantifier": "all parameters with positive search resolutions, all reachable states, all schedules", "why_tests_cant": "It couples the mapper with the plugin: the matcher used must be the one built for this scan, under every interleaving of the two threads.", "anchors": ["src/ndt_mapper.cpp:511-524", "src/ndt_mapper.cpp:549-561", "src/ndt_mapper.cpp:640-656", "src/scan_matcher_ndt.cpp:76-149"]}
{"id": "C76", "title": "Constraints of scan matching carry usable information", "statement": "Every constraint that scan matching adds to the graph has an information matrix of finite numbers, so that the residual handed to the solver can be evaluated at any pair of poses.", "quantifier": "all maps built by addScans, all scans and search windows; all reachable node states", "why_tests_cant": "A test that drives the robot through a well mapped room never has a scan that misses the map; the defect shows only in the solver, for a constraint added long before.", "anchors": ["src/ndt_mapper.cpp:508-531", "src/ndt_mapper.cpp:250-256", "src/constraint.cpp:35-55", "src/scan_matcher_ndt.cpp:140-150", "include/ndt_2d/ceres_solver_pose.hpp:90-127"]}
{"id": "C77", "title": "The constraint between consecutive scans is the motion between them", "statement": "While mapping, the next scan is predicted from the pose of the newest scan, so that without a correction the constraint joining the two is the motion that the odometry reports between them.", "quantifier": "Every execution and schedule of the three threads, every laser message, odometry motion and match result.", "why_tests_cant": "The pose behind the prediction is a copy of the pose of the newest scan; another thread moves the scan later. Tests would have to wait for a loop closure at the right moment.", "anchors": ["src/ndt_mapper.cpp:357-363", "src/ndt_mapper.cpp:527-545", "src/ndt_mapper.cpp:652-656", "src/ndt_mapper.cpp:679-682"]}
{"id": "C78", "title": "Without corrections the map is the odometry moved rigidly", "statement": "If the scan matcher corrects nothing, no loop closure is found and neither a pose nor a map is given, then one rigid transform takes the odometry pose of every scan to its pose in the map, it takes that of the first scan to the origin, and it is the transform that is published.", "quantifier": "Every execution and schedule from a start without a map, any number of scans, any odometry and laser messages.", "why_tests_cant": "Errors of the propagation would only show as slow drift over long runs.", "anchors": ["src/ndt_mapper.cpp:340-365", "src/ndt_mapper.cpp:527-565", "src/ndt_mapper.cpp:716-742"]}
{"id": "C79", "title": "Indices stay valid in double precision", "statement": "Also when every floating-point operation is rounded, the beams used for scoring have distinct valid indices in increasing order, and every point within range of a scan gets a cell of the map built from that scan.", "quantifier": "All roundings to nearest (IEEE-754 being one), all numbers of points up to 2^51, all maps of up to 2^31 cells, all poses and points, any accuracy of cosine and sine.", "why_tests_cant": "Rounding errors that push an index across a boundary occur for isolated values only.", "anchors": ["src/scan_matcher_ndt.cpp:95-110", "src/scan_matcher_ndt.cpp:165-180", "src/scan_matcher_ndt.cpp:50-85", "src/ndt_model.cpp:129-205"]}
{"id": "C80", "title": "The search loops in double precision", "statement": "In double precision the loops of the scan matcher's search visit only offsets in the window, end, and visit the offset zero if the window is a multiple of the resolution.", "quantifier": "All roundings to nearest, all window sizes and resolutions.", "why_tests_cant": "The offset is a sum of rounded steps: one has to know every partial sum to see that none of them is zero.", "anchors": ["src/scan_matcher_ndt.cpp:103", "src/scan_matcher_ndt.cpp:117-119", "src/scan_matcher_ndt.cpp:39-42"]}
{"id": "C81", "title": "The occupancy grid covers its points in double precision", "statement": "Also when every operation is rounded, every point that was part of an update of the bounds lies in a column and row of the grid, and bounds that are aligned to the resolution are not moved by an update that brings no new point.", "quantifier": "All roundings to nearest, all resolutions from 2^-1000, any number of updates up to 2^27, all points within 2^27 cells of the origin.", "why_tests_cant": "The errors of the aligned bounds add up over the life of the map.", "anchors": ["src/occupancy_grid.cpp:57-62", "src/occupancy_grid.cpp:78-90", "src/occupancy_grid.cpp:140-184"]}
{"id": "C82", "title": "The particle filter moves with the odometry", "statement": "When a scan is processed with the particle filter, the motion that the filter is updated with is the motion of the odometry since the last scan that was used: composed with the previous odometry pose it gives the current one (angles up to whole turns), whatever the pose and heading in the map. Every particle afterwards is one that this motion gave; without noise every particle is an old one composed with the motion.", "quantifier": "all parameters, all reachable states of the node, all scans, odometry poses and random draws", "why_tests_cant": "The control is computed in two rotations, from odometry to the map and back to the robot; a test with one heading or without rotation misses a wrong sign, and the state of the node is whatever earlier messages left", "anchors": ["src/ndt_mapper.cpp:390-414", "src/ndt_mapper.cpp:457-470", "src/motion_model.cpp:54-107"]}
{"id": "C83", "title": "The pose in filter mode is the mean of the particles", "statement": "A scan processed with the particle filter ends with the pose that is the mean of the filter's particles under weights that are a probability distribution: x and y are weighted means and lie in every box that holds the particles, the heading is the weighted circular mean in (-pi, pi], and the number of particles is within its limits.", "quantifier": "all parameters with positive limits, all reachable states of the node, all scans of fewer than 2^64 points and all random draws", "why_tests_cant": "It depends on the scores of a map built from all scans of the graph and on the history of the filter; NaN arises only for particular scans and maps", "anchors": ["src/ndt_mapper.cpp:457-479", "src/particle_filter.cpp:78-142", "src/particle_filter.cpp:163-216", "src/scan_matcher_ndt.cpp:156-178"]}
{"id": "C84", "title": "An initial pose makes a new filter", "statement": "An initial pose in the map frame, received while not mapping or not yet initialised, replaces all particles (their number stays) by draws around the pose with the square roots of the message's variances as standard deviations, makes the weights equal, whatever they were before, and makes the message's pose and the current odometry the poses that the next scan starts from. With zero variances the mean of the filter is the pose.", "quantifier": "all parameters with positive limits that use the filter, all reachable idle states, all pose messages in the map frame without negative variances, all odometry poses, all random draws", "why_tests_cant": "The filter before the message may be in any state, including one whose weights are NaN, and particle positions are random", "anchors": ["src/ndt_mapper.cpp:188-226", "src/ndt_mapper.cpp:254-258", "src/particle_filter.cpp:53-69"]}
{"id": "C85", "title": "A mapping node never runs into undefined behaviour", "statement": "A node started without a map, whose scans stay within given bounds and whose graph stays below 2^31 scans and constraints, can do every piece of work of every thread that ordinary inputs give it: no read past the end of a vector, no null pointer, no iterator outside its range, no conversion of a number that does not fit, no overflow, no endless search, no failed CHECK in the optimiser.", "quantifier": "all parameters suiting the bounds, all interleavings of the three threads, all ordinary inputs (laser messages, initial poses, services, results of Ceres and TF), all reachable nodes within the bounds", "why_tests_cant": "Each function is safe only because of invariants kept by other functions and threads (pointers into the graph, sizes latched under another lock, which matcher exists when, which constraints the solver has already seen); tests run one function at a time and a crash needs a particular interleaving or a particular history.", "anchors": ["src/ndt_mapper.cpp:155-745", "src/scan_matcher_ndt.cpp:50-188", "src/ndt_model.cpp:95-220", "src/graph.cpp:160-256", "src/ceres_solver.cpp:50-160"]}
{"id": "C86", "title": "A localising node never runs into undefined behaviour", "statement": "A node started with mapping disabled and a map of at least one scan, that stays within given bounds, can do every piece of work that ordinary inputs give it, with the scan matcher alone or with the particle filter: building the map, matching, moving, weighing and resampling particles, taking an initial pose and publishing are all defined.", "quantifier": "all parameters suiting the bounds, with and without the particle filter, all maps, all interleavings, all ordinary inputs including all random draws, all reachable nodes within the bounds", "why_tests_cant": "The filter's work runs through five functions with preconditions on each other's results (weights as long as particles, bins that fit an int, sample sizes that fit a size_t, matchers made before the first scan); tests exercise each alone with one seed.", "anchors": ["src/ndt_mapper.cpp:188-215", "src/ndt_mapper.cpp:296-313", "src/ndt_mapper.cpp:455-480", "src/ndt_mapper.cpp:545-556", "src/particle_filter.cpp:41-200"]}
{"id": "C87", "title": "Every round of loop closure and every callback ends", "statement": "Whatever the other threads do in between, a round of the loop closure thread that began with n scans (fewer than 2^31) and first takes scan k ends after at most (n - k)(3n + 2) + 3 steps of that thread, and then all n scans have been taken; the thread always has a next step; and a callback of the executor ends after at most five further steps.", "quantifier": "all executions of the mapper from any state, all schedules, results of matching and optimisation, maps loaded meanwhile", "why_tests_cant": "Termination is a property of unbounded executions and of all interleavings; the round's counter is a static local and its list of candidates comes from a graph that other threads change.", "anchors": ["src/ndt_mapper.cpp:571-686", "src/ndt_mapper.cpp:155-565"]}
{"id": "C88", "title": "A saved map comes back", "statement": "Whatever happens between a successful request to save the map under a name and a request to load that name (or a start of a node with that map_file), the map loaded has the scans (id, pose, points) and constraints of the map at the moment it was saved; saving leaves the map alone; a file is never changed; a request with both flags loads and saves nothing.", "quantifier": "all executions of the mapper with its files, all names, actions and orders in which a reader interleaves the topics, all parameters of the later node", "why_tests_cant": "A round trip through files needs a file system and unbounded histories between saving and loading; no test of the package saves from or loads into a running node.", "anchors": ["src/ndt_mapper.cpp:106-116", "src/ndt_mapper.cpp:155-186", "src/graph.cpp:49-165"]}
{"id": "C89", "title": "A request never ends the node", "statement": "A request to the configure service, whatever its action and file name, is carried out or refused, and the node goes on.", "quantifier": "all states, actions, file names and file systems", "why_tests_cant": "The faults are in what rosbag2 throws for names a test does not use, and the exception leaves the service callback.", "anchors": ["src/ndt_mapper.cpp:172-185", "src/graph.cpp:49-55", "src/graph.cpp:107-111"]}
{"id": "C90", "title": "The laser is taken for what it is", "statement": "However the laser is mounted, the points of a scan taken at rest are where its beams ended, seen from above, to 1% of their length: a laser that looks up is taken for upright and one that looks down for inverted, whatever its heading.", "quantifier": "all positions and unit quaternions of the mounting, all messages, limits and beams", "why_tests_cant": "The mounting has three degrees of rotation and the beams two more; tests use one or two mountings, and the threshold on the quaternion's components mirrors the map for mountings just outside of it.", "anchors": ["src/ndt_mapper.cpp:273-283", "src/ndt_mapper.cpp:408-470", "include/ndt_2d/conversions.hpp:52-57"]}
{"id": "C91", "title": "The heading read from a message is the yaw", "statement": "The heading read from the orientation of a message (odometry, initial pose, mounting) is the yaw of the orientation brought within half a turn, whatever its roll and pitch short of straight up or down; it does not depend on the length of the quaternion; an orientation left empty is heading 0; the filter's planar quaternions are read by the same formula.", "quantifier": "all roll, pitch and yaw angles with positive cosine of pitch and |sin pitch| < 0.99999, all quaternions and scales", "why_tests_cant": "Orientations form a continuum of three dimensions; a formula right for planar orientations can be wrong on ramps, and tests use planar ones.", "anchors": ["include/ndt_2d/conversions.hpp:40-62", "src/ndt_mapper.cpp:220", "src/ndt_mapper.cpp:340", "src/ndt_mapper.cpp:386"]}
{"id": "C92", "title": "The end of a scan is the time of its last beam", "statement": "For every laser message that gets to be used, the pose of the robot at the end of the scan is looked up at the time its last beam was measured (to the nanosecond), and computing that time is always defined.", "quantifier": "all stamps, time increments, numbers of beams, transform buffers and states of the mapper", "why_tests_cant": "The undefined conversion needs a message without beams and shows as a wrong time, not a crash; exceptions for stamps before 1970 need a clock no test has.", "anchors": ["src/ndt_mapper.cpp:326-383"]}
{"id": "C93", "title": "Resampling is unbiased", "statement": "Resampling a fixed number of particles, drawn independently by their weights, leaves the expected weight of every pose as it was: no particle gains or loses without a measurement.", "quantifier": "all numbers of particles, poses, weights and all sequences of draws, weighed by their chances", "why_tests_cant": "A bias shows only in averages over many runs with known weights, and resembles a filter that is merely confident.", "anchors": ["src/particle_filter.cpp:91-137"]}
{"id": "C94", "title": "Integer parameters mean the number given or are refused", "statement": "An integer parameter (rolling_depth, global_search_limit, optimization_node_limit, min_particles, max_particles) is used with the number given, or refused.", "quantifier": "all 64-bit integers, all executions with such parameters", "why_tests_cant": "Negative or long values are silently changed; that they switch off loop closure or optimisation shows only as a map of poor quality.", "anchors": ["src/ndt_mapper.cpp:63", "src/ndt_mapper.cpp:69-70", "src/ndt_mapper.cpp:82-88", "include/ndt_2d/ndt_mapper.hpp:83", "src/particle_filter.cpp:46-49"]}
{"id": "C95", "title": "What is published is the map", "statement": "Whenever nothing is under way (no announced update, no thread about to announce one, publisher not publishing) the last published occupancy grid renders the scans of the graph as they are and the last published markers are those of the graph; no change of the map goes unannounced.", "quantifier": "all executions, all interleavings of the three threads", "why_tests_cant": "A change that is not announced is published with the next one, seconds later; a test that waits for any map sees nothing missing.", "anchors": ["src/ndt_mapper.cpp:231-256", "src/ndt_mapper.cpp:542-545", "src/ndt_mapper.cpp:655-662", "src/ndt_mapper.cpp:682", "src/ndt_mapper.cpp:691-714"]}
{"id": "C96", "title": "A robot can be localised by hand", "statement": "A node that is not localised takes any pose given in the map frame when odometry is available.", "quantifier": "all reachable states, all poses", "why_tests_cant": "Needs the particular order of requests (off and on before the first scan), or a pose more than three metres from every scan.", "anchors": ["src/ndt_mapper.cpp:159-170", "src/ndt_mapper.cpp:188-265", "src/graph.cpp:167-189", "src/ndt_mapper.cpp:316-320"]}
{"id": "C97", "title": "The scripts do what they are called", "statement": "enable_mapping.py, disable_mapping.py, save_map.py and load_map.py send one request that switches mapping on or off, saves or replaces the map, and changes nothing else; a map saved by one is brought back by the other; mapping that was disabled and enabled goes on.", "quantifier": "all states of an idle node, all file contents, all executions in between", "why_tests_cant": "The scripts have no tests; the effect of a request depends on bits shared between two languages.", "anchors": ["scripts/enable_mapping.py:18-22", "scripts/disable_mapping.py:18-22", "scripts/load_map.py:20-25", "scripts/save_map.py:20-25", "srv/Configure.srv:1-4", "src/ndt_mapper.cpp:155-186"]}
{"id": "C98", "title": "Statistics and scores of a cell in double precision", "statement": "With every operation of addPoint, compute and score rounded to double precision, the mean and the covariance of a cell are those of its points up to rounding (an error that grows with the number of points and with the largest coordinate), and the score of a point is a number from zero to one.", "quantifier": "every rounding to nearest, every list of up to 2^49 points with coordinates up to 2^100, every eigenvalue solver that finds the larger eigenvalue up to a factor of two, every query point", "why_tests_cant": "Tests use a handful of points near the origin with round coordinates, where the cancellation in correlation - mean * mean does not show. A negative variance needs points on an axis-parallel line at particular coordinates.", "anchors": ["src/ndt_model.cpp:50-63", "src/ndt_model.cpp:65-103", "src/ndt_model.cpp:105-116"]}
{"id": "C99", "title": "The map does not depend on the order of the scans", "statement": "addScans makes the same map, cell by cell, of scans in any order: the map depends only on the positions of the scans and on the points in the map frame, each counted as often as it occurs.", "quantifier": "all non-empty lists of scans with points in range and all their permutations, all parameters", "why_tests_cant": "The statistics are updated one point at a time; that the result forgets the order needs a proof over all sequences.", "anchors": ["src/scan_matcher_ndt.cpp:49-74", "src/ndt_model.cpp:50-63", "src/ndt_model.cpp:132-160"]}
{"id": "C100", "title": "Matching does not depend on where the robot is", "statement": "If all scans of the map and the scan to be matched are taken at a place that is off by a common vector, and headings have any number of full turns more, then likelihood, scoreScan and matchScan return what they return without it: same score, same offset, same covariance.", "quantifier": "all scans, all displacements, all numbers of turns, all parameters", "why_tests_cant": "A relation between two runs, for all inputs: the grid is laid from the corner of the bounding box and the two grids can differ in size.", "anchors": ["src/scan_matcher_ndt.cpp:49-178", "src/ndt_model.cpp:162-218"]}
{"id": "C101", "title": "The map is as large as the scans need", "statement": "The grid of a local or global map has just the cells that cover the range of every scan.", "quantifier": "all non-empty lists of scans", "why_tests_cant": "Shows only on one side of the origin and does not change any result, only memory and time.", "anchors": ["src/scan_matcher_ndt.cpp:53-70", "src/ndt_model.cpp:118-126"]}
{"id": "C102", "title": "Only measurements become points of the map", "statement": "A range below range_min is not a measurement (sensor_msgs/LaserScan) and does not become a point of a scan.", "quantifier": "all laser messages", "why_tests_cant": "Drivers mark beams without an answer in different ways; the effect of zeros shows only when enough of them meet in one cell of a map and a later scan is matched.", "anchors": ["src/ndt_mapper.cpp:405-453", "src/ndt_model.cpp:65-116", "src/scan_matcher_ndt.cpp:76-149"]}
{"id": "C103", "title": "No kept beam is lost by the map", "statement": "Every beam that the laser callback keeps lands in a cell of every map its scan is part of.", "quantifier": "all messages, all mountings, all maps", "why_tests_cant": "Needs a beam near the range limit in the direction of the mounting offset; nothing reports a lost point.", "anchors": ["src/ndt_mapper.cpp:405-453", "src/scan_matcher_ndt.cpp:53-74", "src/ndt_model.cpp:203-218"]}
{"id": "C104", "title": "Jacobians are derivatives of the residuals", "statement": "For a weight of proper numbers, wherever the heading error of a constraint is not an odd number of half turns, the value and the six partial derivatives that PoseGraph2dErrorTerm yields on dual numbers are the residual it yields on doubles and that residual's derivative by the poses; half the squared residual has the gradient Ceres forms. The Jacobian vanishes on a change of both poses exactly if the change is a common rigid motion. At an odd number of half turns the residual jumps and has no derivative.", "quantifier": "all measurements, all pairs of poses, all weights (and the Cholesky weight of every positive definite information matrix)", "why_tests_cant": "derivatives are never checked by the tests, which only look at optimised poses of two small graphs", "anchors": ["include/ndt_2d/ceres_solver_pose.hpp:48-108", "include/ndt_2d/ceres_solver_pose.hpp:110-118", "src/ceres_solver.cpp:132-166"]}
{"id": "C105", "title": "Particles are poses", "statement": "Every particle of the filter has three finite coordinates, after every history of initial poses, motion updates, measurements and resamplings.", "quantifier": "all histories of requests of the node to its filter, all draws, all scans, all matchers, all coefficients of the motion noise and all variances of initial poses", "why_tests_cant": "the tests use one initial pose with small positive variances and fixed coefficients", "anchors": ["src/ndt_mapper.cpp:218-223", "src/ndt_mapper.cpp:473-475", "src/particle_filter.cpp:53-137", "src/motion_model.cpp:59-82", "include/ndt_2d/kd_tree.hpp:97-102"]}
{"id": "C106", "title": "Real-valued parameters are usable or refused", "statement": "For every value of the parameters that are real numbers, either the node refuses to start or its matchers, its published grid and its filter can work with them: a map can be built, a search ends and returns numbers, the grid can be rendered and the number of particles can be computed.", "quantifier": "all values of the parameters that are real numbers, all scans, all executions of the node", "why_tests_cant": "the tests use one set of parameters, close to the defaults", "anchors": ["src/ndt_mapper.cpp:59-107", "src/scan_matcher_ndt.cpp:35-47", "src/scan_matcher_ndt.cpp:76-149", "src/ndt_model.cpp:118-126", "src/occupancy_grid.cpp:47-66", "src/particle_filter.cpp:120-123"]}
{"id": "C107", "title": "Resampling draws no more particles than it needs", "statement": "The number of particles after a resampling is at most the larger of min_particles and the number the KLD bound asks for with the bins the particles lie in; in particular a cloud in one bin is kept with the fewest particles.", "quantifier": "all histories of the filter, all draws, all limits and KLD parameters", "why_tests_cant": "the tests resample one cloud; the claim is about every cloud and every outcome of the random source", "anchors": ["src/particle_filter.cpp:91-137", "include/ndt_2d/kd_tree.hpp:97-123"]}
{"id": "C108", "title": "Bins are alike everywhere", "statement": "Particles are counted in the same bin only if they differ by less than the bin size in every coordinate, headings on either side of half a turn are in neighbouring bins, and how many particles a cloud takes does not depend on where in the map it is.", "quantifier": "all particles, all bin sizes", "why_tests_cant": "the tests of the tree insert a few keys and count leaves", "anchors": ["include/ndt_2d/kd_tree.hpp:97-102", "src/particle_filter.cpp:91-137"]}
{"id": "C109", "title": "A transform is published once the robot has a place in the map", "statement": "Every published map-to-odom transform is that of a robot pose and an odometry pose that a laser callback arrived at together, or that came with an initial pose, in the map that is in use.", "quantifier": "all executions and schedules, with and without maps", "why_tests_cant": "there is no test of the node; the publishing thread runs beside the callbacks", "anchors": ["src/ndt_mapper.cpp:716-742", "src/ndt_mapper.cpp:106-116", "src/ndt_mapper.cpp:172-185", "src/ndt_mapper.cpp:536-545"]}
{"id": "C110", "title": "Each laser message is read with the mounting of its own laser", "statement": "The points of a scan taken at rest are where the beams of the message ended, given the mounting of the laser whose frame the message names and the largest range of that laser.", "quantifier": "all executions and schedules, all messages and mountings", "why_tests_cant": "there is no test of the node; with one laser that does not move nothing shows", "anchors": ["src/ndt_mapper.cpp:267-293", "src/ndt_mapper.cpp:396-453"]}
{"id": "C111", "title": "Optimising a map that agrees with its constraints leaves it as it is", "statement": "As long as no map is loaded while the mapper runs, matches and initial poses have positive definite covariances and loop closures find nothing to correct, every constraint of the graph leads from the place of its first scan to that of its second, and every scan keeps its place from the moment it is in the graph, however often the map is optimised by a Ceres that makes nothing worse (positions exactly, headings up to full turns). Not claimed for constraints whose information says nothing about some direction: there an optimiser that makes nothing worse may move a scan.", "quantifier": "all executions of the mapper (all schedules, messages, odometry, search orders and optimiser outcomes) from the start without a file or with a file holding such a map", "why_tests_cant": "Needs the constraint measurement, its residual, the incremental problem kept by the solver, the fixed first scan and the links back to it to fit together over whole executions of three threads; a run only shows one optimiser and one map, and an error in a transform or an index that cancels in a small map stays unseen.", "anchors": ["src/constraint.cpp:35-56", "src/ceres_solver.cpp:50-167", "include/ndt_2d/ceres_solver_pose.hpp:48-118", "src/ndt_mapper.cpp:235-262", "src/ndt_mapper.cpp:505-560", "src/ndt_mapper.cpp:640-690"]}
{"id": "C112", "title": "Angles of beams in single precision", "statement": "The angle of a beam is computed in single precision. For a laser that sees at most a full turn it is within a millionth of a radian of angle_min + i * angle_increment, so that every point lies within a millionth of its range of where exact angles put it, for both mountings. Beams keep their order, and beams that are more than two millionths of a radian apart keep different angles; closer ones may get the same.", "quantifier": "all messages with fewer than 2^24 beams, all mountings and movements during the scan, every rounding to nearest", "why_tests_cant": "Tests compare with a tolerance for a few beams; a bound on the error holds for every angle, increment and beam only by proof", "anchors": ["src/ndt_mapper.cpp:415-449"]}
{"id": "C113", "title": "Poses of particles in single precision", "statement": "The filter draws poses and motions in single precision. An initial pose without uncertainty puts every particle there up to a ten-millionth of the coordinate; without noise a motion moves a particle by the commanded motion up to a millionth of its length and a millionth of a radian, and after n motions of at most L metres the place is off by at most L n (n+1) / 2 millionths. Far from the origin this is felt: with a northing of 4194304.25 m every particle is a quarter of a metre off.", "quantifier": "all filters, poses, motions above one centimetre, sequences of motions, random numbers, every rounding to nearest", "why_tests_cant": "Tests stay near the origin, where the loss of precision is below their tolerance; the growth with the number of motions needs induction", "anchors": ["src/particle_filter.cpp:53-69", "src/motion_model.cpp:45-83"]}
{"id": "C114", "title": "Dead reckoning in double precision", "statement": "As long as the matcher corrects nothing, the robot follows its odometry moved rigidly in double precision as well: after N scans whose steps are at most L metres, in a map that reaches to B - 1 metres, each coordinate is off by at most N (2e-14 L N + 4e-16 B) metres and the heading by at most 8e-15 N, up to full turns. A hundred thousand scans up to a metre apart in a map that reaches a kilometre around stay within a millimetre.", "quantifier": "all start poses, all sequences of odometry poses with headings in the usual range, every rounding to nearest, every cosine and sine accurate to 2^-52", "why_tests_cant": "Errors of rounding add up over hours of driving; a test drives a few metres and cannot bound the sum", "anchors": ["src/ndt_mapper.cpp:340-363"]}
{"id": "C115", "title": "Statistics of the filter in double precision", "statement": "In double precision the normalised weights of n particles are not negative and add up to one up to n 2^-49, each coordinate of the mean is the weighted mean up to n 2^-48 times the largest coordinate and lies in every box that holds the particles up to that error, and the covariance of the position is that of the weighted particles up to n 2^-46 times the square of the largest coordinate. Variances are not negative.", "quantifier": "all particles with coordinates up to B (at least a picometre), all weights that are not negative and do not add up to less than 2^-100, up to 2^40 of them, every rounding to nearest", "why_tests_cant": "The difference of two large sums cancels; a test near the origin with a few particles does not show how the error grows with the distance and the number of particles", "anchors": ["src/particle_filter.cpp:163-213"]}
{"id": "C116", "title": "The mean heading is among those of the particles", "statement": "If all particles face within an angle a, less than a quarter turn, of some direction, then the heading of getMean is within a of that direction, also on either side of half a turn; so is the heading of the robot after a scan in filter mode.", "quantifier": "all histories of the filter, all reachable states of the node, all directions and angles below a quarter turn, all weights that form a distribution", "why_tests_cant": "A plain average passes every test whose headings do not cross half a turn; the claim is about all clouds.", "anchors": ["src/particle_filter.cpp:176-202", "src/ndt_mapper.cpp:455-482"]}
{"id": "C117", "title": "The filter does not depend on the frame of the map", "statement": "Two filters that hold the same poses in two frames (turned and shifted, headings up to full turns) with the same weights do so after every motion with the same draws and every measurement with scores that agree; their means are the same pose, their covariances the same matrix turned, and their heading variances grow alike. They also draw the same particles when they resample. Scores agree when map and particles are shifted by the same vector.", "quantifier": "all frames, all particles and weights, all lists of motions and measurements, all draws", "why_tests_cant": "A test fixes one frame; an error in one coordinate or a heading taken in the wrong frame shows only in another.", "anchors": ["src/particle_filter.cpp:71-222", "src/motion_model.cpp:45-83", "src/scan_matcher_ndt.cpp:156-178"]}
{"id": "C118", "title": "The cells of a ray lie along the beam", "statement": "Every cell that a beam counts as empty or hit is within half a cell of the straight line from the cell of the robot to the cell of the measured point, so in metres near the beam itself; a cell that no beam passes through other than the one that ends in it is not shown as free.", "quantifier": "all pairs of cells, all beams, all cell sizes", "why_tests_cant": "Tests draw a few rays and look at the map; cells that are counted beside a beam only show in particular directions and only in how often they are counted.", "anchors": ["src/occupancy_grid.cpp:66-133"]}
{"id": "C119", "title": "A closed loop is distributed over the map", "statement": "Once a loop has been closed and more than optimization_node_limit scans have been added since the last run of the optimiser, the optimiser runs at the end of the present round of the loop closure thread.", "quantifier": "all parameters, all executions of the three threads", "why_tests_cant": "Tests do not run the threads; a map that is never optimised only shows when a loop was closed soon after the last run and no other loop is closed later.", "anchors": ["src/ndt_mapper.cpp:601-683"]}
{"id": "C120", "title": "The threads keep to their roles", "statement": "As the README's threading notes say: only the executor thread adds scans and changes the previous poses; the loop closure thread only moves scans and adds constraints; the publishing thread alters neither the graph nor the poses; and no thread touches what is kept by another.", "quantifier": "all parameters, all states, all events", "why_tests_cant": "Tests do not run the node; that a thread leaves something alone is a statement about all of its steps in all states.", "anchors": ["README.md:129-144", "src/ndt_mapper.cpp:188-746"]}
{"id": "C121", "title": "Points and constraints in double precision", "statement": "With every operation rounded, a point of a scan that reaches to P from a pose that reaches to T is placed in the map within 2.2e-15 P + 2.4e-16 T + 5e-30 of its true place on each axis; the points of a laser message, for either mounting, are within a millionth of the range plus 6e-14 of the largest length involved of the points that real numbers give; and the constraint between two poses leads from the one to the other up to 6e-15 of the way between them.", "quantifier": "all roundings to nearest, accurate C library functions, poses, points, messages of fewer than 2^24 beams over a turn, laser mountings and movements during the scan", "why_tests_cant": "Tests compare a handful of points with a tolerance; a bound holds for every point, pose and rounding.", "anchors": ["src/ndt_mapper.cpp:385-453", "src/constraint.cpp:35-58", "src/ndt_model.cpp:131-145", "src/occupancy_grid.cpp:80-90"]}
{"id": "C122", "title": "In an ideal world the map is the world", "statement": "With exact odometry and an exact laser, a robot that stands while a scan is taken, and nothing to correct, every point of every scan of the map is an obstacle of the world, seen through one rigid transform, that of the robot at its first scan; every cell a published grid calls occupied has an obstacle within a cell and a half along x and half a cell along y; and every cell not called unknown lies within two cells of a beam from a place of a scan to an obstacle.", "quantifier": "all worlds, mountings of the laser, limits, parameters without the filter, executions and schedules; for the grid, maps of up to 20000 cells in each direction whose scans have points on all sides", "why_tests_cant": "Tests of the parts do not show that they fit together; the claim is about every world, path and schedule.", "anchors": ["src/ndt_mapper.cpp:265-566", "src/ndt_mapper.cpp:684-746", "src/occupancy_grid.cpp:47-187"]}
{"id": "C123", "title": "A scan that fits stays where it is", "statement": "A scan that already fits the map as well as any offset of the search window would make it fit is left where it is by ScanMatcherNDT::matchScan; in particular a scan matched against the map made of that same scan, at its true pose, gets the correction zero.", "quantifier": "for all maps, scans, window sizes and resolutions; the refutation for every straight wall parallel to the x axis, every map of it and every scan of two or more places on it", "why_tests_cant": "The drift is one search window per scan and the score of the drifted scan is perfect, so a test that looks at the score, or at rooms with corners, sees nothing wrong; the tests in the repository do not run the matcher at all.", "anchors": ["src/scan_matcher_ndt.cpp:103-134", "src/ndt_model.cpp:83-96", "src/ndt_model.cpp:105-116"]}
{"id": "C124", "title": "With exact sensors the robot knows where it is", "statement": "If odometry and laser are exact and nothing moves while a scan is taken, every scan of the map is stored at the true pose of the robot: the pose is the odometry pose of that scan, moved by the one rigid transform that takes the odometry pose of the first scan to the origin. Scan matching must not move a robot whose position is already right.", "quantifier": "all parameters of the node, all worlds, all laser mountings, all sequences of exact messages, all interleavings", "why_tests_cant": "The tests check single classes; none runs the matcher or the node on a world, and a drift along a wall of one search window per scan looks like ordinary mapping error.", "anchors": ["src/ndt_mapper.cpp:347-369", "src/ndt_mapper.cpp:499-545", "src/scan_matcher_ndt.cpp:76-149", "src/ndt_model.cpp:65-116"]}
{"id": "C125", "title": "A loop is closed only where the scan has its place in the map", "statement": "A loop closure is accepted only if, at the corrected pose, the share of the scan's beams (of those used) that end within one square of at least five points of the candidate scan or the scan before it exceeds the magnitude of the typical response; in particular at least one beam does. A scan of another place closes no loop.", "quantifier": "all parameters, maps, scans and reachable states of the node, under every schedule, whatever was loaded meanwhile", "why_tests_cant": "The tests check no loop closure; that a false closure needs this overlap depends on the cells' minimum of five points, the normalisation by the beams used, the running average of scores and which scans make up the region map, together.", "anchors": ["src/ndt_mapper.cpp:620-668", "src/ndt_mapper.cpp:518", "src/scan_matcher_ndt.cpp:76-149", "src/ndt_model.cpp:65-130"]}
{"id": "C126", "title": "In double precision every published grid is a drawing of its scans", "statement": "Also when every operation on doubles is rounded, and whatever the library's sine and cosine return: in any history of calls on one grid object in which scans are appended and not moved, no call is undefined; every message has width times height cells; every ray runs between squares that hold the sensor and the computed point up to a fiftieth of a square, and all squares on it belong to the message; and the value of a square is decided by the counts of rays that ended in it and passed it, an occupied square having been hit in more than the given share.", "quantifier": "all roundings to nearest, all sine and cosine functions, all resolutions from 2^-1000, all histories of calls whose scans have points on all sides, with extent in cells plus number of scans up to 22000", "why_tests_cant": "The rounding errors of the bounds add up over the calls; a square off by one at the border is a write outside of the arrays that only some coordinates show.", "anchors": ["src/occupancy_grid.cpp:47-187"]}
{"id": "C127", "title": "Loops are closed between near scans", "statement": "When the loop closure thread ties a scan to a candidate, and no map has been loaded since it picked the scan, the constraint is no longer than the square root of global_search_size, plus (if barycentres are searched) the distance of each scan from the barycentre of its points, plus for each of the global_search_limit attempts the diagonal of the search window; while a candidate is tried the two scans are that near with one window for each attempt already made. With default parameters and searching by pose this is below 0.66 m, so a robot that has drifted further closes no loop.", "quantifier": "all maps, messages, scores, schedules and search parameters with a positive limit; all loop closures", "why_tests_cant": "The scan is moved while its list of candidates is worked through, appended to by another thread and possibly replaced by a loaded map; tests see only single attempts on maps at rest.", "anchors": ["src/ndt_mapper.cpp:600-672", "src/graph.cpp:167-189", "src/constraint.cpp:35-56"]}
{"id": "C128", "title": "Matching in double precision", "statement": "Computed in double precision, the scan matcher returns the first of the offsets that no other offset of its search exceeds in score, an offset strictly inside the search window, and a score that is a number from -1 to 0.", "quantifier": "All rounding rules to nearest, all functions for cosine and sine, all eigenvalue solvers that find the larger eigenvalue up to a factor of two, all maps, scans, poses, window sizes, resolutions and numbers of beams.", "why_tests_cant": "Whether a score leaves the range depends on the last bits of the points that fell into a square; a test that hits five such points by chance has vanishing probability.", "anchors": ["src/scan_matcher_ndt.cpp:76-149", "src/ndt_model.cpp:132-187", "src/ndt_model.cpp:105-116", "src/ndt_mapper.cpp:511-518"]}
{"id": "C129", "title": "In double precision, making a map and matching a scan always return", "statement": "In double precision too, `addScans` with at least one scan and the `matchScan` that follows return: every conversion of a double to an integer (the size of the map, the column and row of a point, the number of a beam) is of a value that fits, every access to a cell or a point is within the vector, and the three nested loops end. This holds for all scans and poses within P metres, P being at most 2048 squares of the map (512 m with the default resolution), if the resolutions of the search are not below 2^-51 of its window. With an angular resolution below 2^-55 of the window, zero for example, matchScan never returns.", "quantifier": "for all roundings to nearest, all cosines and sines accurate to 2^-52, all eigenvalue routines, all non-empty lists of scans and all points in them, poses and parameters within the bounds", "why_tests_cant": "The claim is about every point, pose and parameter within the bounds, and about undefined conversions and endless loops, which a test that passes does not rule out for other inputs.", "anchors": ["src/scan_matcher_ndt.cpp:53-149", "src/ndt_model.cpp:118-186", "src/ndt_model.cpp:203-218"]}
{"id": "C130", "title": "Weighing the particles in double precision gives weights from 0 to 1 and the weighted mean", "statement": "In double precision, `measure` returns for maps, scans and particles within the bounds of C129. If the squares of the map are well spread, every score is a number from -1 to 0, and if any of them is not zero every weight is a number from 0 to 1. If the scores are not tiny, the weights add up to one within n 2^-49, and the mean position is the mean of the particles weighted with their scores within n 2^-48 of the largest coordinate. Without those conditions it fails: one particle with a score of minus infinity makes the mean position NaN wherever the others are (five points on a line do), and so does a wall 2 m ahead for a particle 6.25 cm nearer to it, as its likelihood is below the smallest double.", "quantifier": "for all roundings to nearest, all cosines and sines accurate to 2^-52, all eigenvalue routines within a factor of two, all maps, scans and particles within the bounds", "why_tests_cant": "The claim is about every cloud and every map, with the roundings of every operation. A test checks one cloud, and one whose scores neither overflow nor underflow.", "anchors": ["src/scan_matcher_ndt.cpp:151-178", "src/particle_filter.cpp:78-89", "src/particle_filter.cpp:163-200"]}
{"id": "C131", "title": "The mean heading in double precision is the direction the particles face", "statement": "In double precision, the mean heading of the filter is within half a turn, and is the direction of the weighted mean of the unit vectors of the particles, up to full turns and within n 2^-42 over the length of that mean plus 2^-50, if that length is at least n 2^-44. So if all particles face within an angle a, less than a quarter turn, of some direction, the mean heading does as well, up to the error. The entry of the covariance for the heading grows by the weighted mean of the squared angles between the particles and the mean heading, the angle being the one on the short way round, within n 2^-48 times ten plus the previous entry, and 1e-13.", "quantifier": "for all roundings to nearest, all cosines, sines and arc tangents accurate to two units in the last place, all weighted particles", "why_tests_cant": "The claim bounds the rounding errors of every cloud, also at the jump of headings from pi to -pi, where a small error can turn a heading round; a test checks one cloud within a tolerance of its own.", "anchors": ["src/particle_filter.cpp:181-187", "src/particle_filter.cpp:200", "src/particle_filter.cpp:212-217"]}
{"id": "C132", "title": "Residuals in double precision", "statement": "In double precision, the residual of a new constraint at the poses it was made of is exactly zero, so that a map that nothing has changed since costs nothing. The residual at any poses is how far the second pose is from where the measurement has it, seen from the first: the position within 3e-15 of the way between the poses plus 1.3e-16 of the measurement, the heading within 5e-14 up to full turns. `NormalizeAngle` gives angles from -pi to below pi, as its comment says.", "quantifier": "for all roundings to nearest, all cosines and sines accurate to 2^-52, all poses and measurements with headings that differ by at most 50 rad, all finite information", "why_tests_cant": "The claim is about every pair of poses with the roundings of every operation. A test would accept a small residual at creation, whose optimisation moves the map, and does not try the one double below pi where the normalisation goes wrong.", "anchors": ["include/ndt_2d/ceres_solver_pose.hpp:57-65", "include/ndt_2d/ceres_solver_pose.hpp:94-105", "src/constraint.cpp:42-50"]}
{"id": "C133", "title": "Barycenters in double precision", "statement": "In double precision, the barycenter of a scan, by which scans are searched when loops are closed, is the pose moved to the centroid of the points: within (5e-16 n + 2.5e-15) P + 1.3e-16 T for n points at most P away and a position of at most T, so that a scan of a thousand points within 30 m is placed to 2e-11 m. It does not leave the box of the moved points by more than that; it can leave it, by rounding, even when all points are the same. The heading is that of the pose, exactly, and a scan without points has its pose as barycenter.", "quantifier": "for all roundings to nearest, all cosines and sines accurate to 2^-52, all poses, all lists of at most 2^40 points", "why_tests_cant": "The claim is about every list of points of every length, with the roundings of every operation; a test adds up a few points.", "anchors": ["src/scan.cpp:72-91", "src/scan.cpp:55-59"]}
{"id": "C134", "title": "Normal distributions are made with a positive deviation", "statement": "Every std::normal_distribution of the particle filter is made with a positive standard deviation, as the standard requires; a node built with the checks of the standard library (_GLIBCXX_ASSERTIONS) therefore does the same as one without.", "quantifier": "all reachable states, all scans, all initial poses, all random numbers, all coefficients", "why_tests_cant": "Without the checks a deviation of zero gives the mean, and nothing is noticed; a test would have to be built with the checks and turn the robot without moving it.", "anchors": ["src/motion_model.cpp:60-71", "src/particle_filter.cpp:56-58", "src/ndt_mapper.cpp:218-223"]}
{"id": "C135", "title": "Resampling draws particles by their weights", "statement": "Resampling draws only particles of positive weight, each with a chance equal to its weight divided by the sum of the weights, and the weights given to std::discrete_distribution have a positive sum, as the standard requires.", "quantifier": "all weights, including NaN and zero, all numbers of particles, all uniform random numbers", "why_tests_cant": "The particle drawn depends on the random number and on all weights; a wrong chance shows only in frequencies, and weights that are all NaN draw a particle like any others.", "anchors": ["src/particle_filter.cpp:91-137", "src/particle_filter.cpp:78-89"]}
{"id": "C136", "title": "Drawing particles in double precision", "statement": "In double precision too, resampling draws only particles of positive weight, each with a chance that is its share of the weights up to n 2^-48, and the sum of the weights passes the check of std::discrete_distribution.", "quantifier": "all roundings to nearest, all weights that are not negative with a sum of at least 2^-100, up to 2^40 particles, all uniform random numbers", "why_tests_cant": "The partial sums are rounded, and whether their last one reaches one depends on the last bits of all weights.", "anchors": ["src/particle_filter.cpp:91-137"]}
{"id": "C137", "title": "Covariance of matching in double precision", "statement": "In double precision the covariance that matchScan computes consists of numbers, and each entry is the second moment of the offsets weighted by their likelihoods plus the product of their means, up to N 2^-46 times the sizes of the offsets, for N offsets; its diagonal is never negative.", "quantifier": "all roundings to nearest, all maps, scans and windows of up to 2^40 offsets whose likelihoods are numbers that are not negative and sum to between 2^-30 and 2^60", "why_tests_cant": "Thousands of rounded terms are summed before two divisions; a test sees one window and cannot tell rounding from a wrong formula.", "anchors": ["src/scan_matcher_ndt.cpp:85-147"]}
{"id": "C138", "title": "Motion model in double precision", "statement": "In double precision, with normal draws in single precision, the motion model computes the deviations of its formula with squares right up to a part in ten million million; coefficients that are not negative never give a NaN; a pose is moved by the draws up to the rounding of its coordinates; without noise it moves by the commanded motion up to a millionth of its length and a millionth of a radian; a robot that has not moved keeps its position exactly.", "quantifier": "all roundings to nearest, all accurate library functions, all coefficients that are not negative, all motions of more than a centimetre (and no motion), all poses with headings within half a turn, all draws", "why_tests_cant": "Folding a turn onto the nearer of ahead and back subtracts nearly equal angles; tests run the model with noise, where rounding is invisible.", "anchors": ["src/motion_model.cpp:45-83"]}
{"id": "C139", "title": "The published transform in double precision", "statement": "In double precision the published transform from map to odometry has a quaternion of numbers whose length is one up to 4e-14 and which turns by the difference of the headings up to 1e-13, and the translation of the exact transform up to 6e-15 of the odometry and 1.3e-16 of the map coordinates; applied to the last odometry pose it gives the last robot pose up to 3e-13 of the distance from the origin of the odometry.", "quantifier": "all roundings to nearest, all accurate library functions, all robot and odometry poses", "why_tests_cant": "The matrix is turned into a quaternion by two formulas, chosen by the trace; a test with one heading sees one of them, and rounding grows with the distance driven.", "anchors": ["src/ndt_mapper.cpp:722-740", "include/ndt_2d/conversions.hpp:64-68"]}
{"id": "C140", "title": "Resampling in double precision", "statement": "In double precision resampling meets no undefined behaviour, draws a number of particles within the limits, and stops where the KLD bound says up to a relative 3e-15: the number computed for k bins differs from the exact one by one at most. The bins of the places are computed without error; the bin of a heading is the bin of a number next to it.", "quantifier": "all roundings to nearest, all filters, all draws, all bin sizes, all error bounds from 1e-4 to 1e6 and quantiles from 0 to 10", "why_tests_cant": "The bound is a cubic of a rounded root that is truncated to an integer; a test compares a few values of it and never at the values next to an integer.", "anchors": ["src/particle_filter.cpp:91-137", "include/ndt_2d/kd_tree.hpp:97-123"]}
{"id": "C141", "title": "Minimum travel in double precision", "statement": "In double precision a scan is kept once the robot has gone the minimum distance up to a part in 10^15, or has turned by the minimum rotation up to 1.2e-14, and is ignored when it has done neither; a robot that stands still adds no scan at all.", "quantifier": "all roundings to nearest, all odometry poses with headings within 3.5, all minimum distances from a micrometre, all minimum rotations", "why_tests_cant": "The test compares rounded squares of differences; a test has a few poses and none next to the threshold or far from the origin.", "anchors": ["src/ndt_mapper.cpp:347-355"]}
{"id": "C142", "title": "Headings in messages in double precision", "statement": "In double precision the heading read from the orientation of a message is its yaw, whatever the roll and up to a pitch of 53 degrees: with components within d of those of the orientation it is off by 30 d + 7e-15 at most, up to full turns, and lies within half a turn. The quaternion written for a particle has length one up to 1e-15, and reading it gives the heading back up to 2e-15 |heading| + 1.5e-14.", "quantifier": "all roundings to nearest, all library functions accurate to the last place, all orientations with |sin pitch| at most 0.8, all headings up to 1e9", "why_tests_cant": "The formula has fifteen rounded operations, two thresholds and an atan2; a test reads a few orientations, most of them flat.", "anchors": ["include/ndt_2d/conversions.hpp:40-62", "src/particle_filter.cpp:149-162", "src/ndt_mapper.cpp:217-220"]}
{"id": "C143", "title": "The control of the filter in double precision", "statement": "In double precision the motion the filter is told leads from the pose at the last scan to the predicted pose, up to 6e-15 of the way and 4e-15 in heading; a robot that stands still tells a motion of exactly zero. Without noise, a particle at the pose of the last scan ends at the predicted pose up to a millionth of the way.", "quantifier": "all roundings to nearest of double and float, all library functions accurate to the last place, all poses with headings within 3.5; for the last part ways from 11 mm to 1000 km", "why_tests_cant": "The motion goes through a matrix product, a polar form and back, in two precisions; tests check the motion model on a few motions and never the mapper's use of it.", "anchors": ["src/ndt_mapper.cpp:455-472", "src/motion_model.cpp:44-101"]}
{"id": "C144", "title": "The end of a scan in double precision", "statement": "With the products in double precision and the conversion to integer nanoseconds, the end of a scan with a beam is the time of its last one up to a nanosecond and 2.5e-16 of the length of the scan; for scans of up to a thousand seconds up to 1.001 nanoseconds. The conversion of an empty message is undefined behaviour in double precision, too.", "quantifier": "all roundings to nearest, all stamps from 1970 on, all increments, all positive numbers of beams up to 2^53", "why_tests_cant": "The number of beams and the increment form a continuum, and truncation after two roundings may go either way.", "anchors": ["src/ndt_mapper.cpp:368-372"]}
{"id": "C145", "title": "In double precision the map is the world", "statement": "Prediction from odometry, the projection of beams and the transform into the map together, in doubles and floats as they are computed: when the odometry is right, the robot stands while it scans and no correction is made, every obstacle that is seen is in the map where it is in the world moved rigidly, up to 1.21 mm in each coordinate. Distances between obstacles come out up to 5 mm, and an obstacle seen from two places is drawn twice at the same place up to 3 mm.", "quantifier": "all roundings to nearest of double and float, all library functions accurate to the last place, all mountings up to 10 m from the robot, both ways up, all runs of up to 100000 scans up to a metre apart within a kilometre, beams of up to 100 m", "why_tests_cant": "Errors of rounding add up along a run of any length; a test has a few scans and tolerances chosen by hand.", "anchors": ["src/ndt_mapper.cpp:340-364", "src/ndt_mapper.cpp:385-452", "src/ndt_model.cpp:136-141"]}
{"id": "C146", "title": "Where a reader of the occupancy grid sees what was measured", "statement": "The resolution in the message is a float while the squares are computed with the double. In doubles and floats as they are: a square that is called occupied is, where a reader of the message sees its middle, within 0.523 squares along y and 1.523 along x of a measured point (0.523 both ways unless the ray is of the kind that ends a square early, C44); every measured point has a square that near that is not unknown; and for a robot for which C145 holds, an occupied square is that near, and 1.21 mm, to an obstacle.", "quantifier": "all roundings to nearest of double and float, all resolutions from a millionth of a metre, all histories of calls with growing lists of scans, all maps of up to 45000 squares a side", "why_tests_cant": "The float resolution is multiplied by the number of the square, so the shift grows with the map; tests have maps of a few squares.", "anchors": ["src/occupancy_grid.cpp:60", "src/occupancy_grid.cpp:57-66", "src/occupancy_grid.cpp:73-151"]}
{"id": "C147", "title": "Poses with corrections in double precision", "statement": "Whatever the corrections of matching, the pose of the robot as computed in doubles is the one that following the odometry between scans and adding the correction at each of them gives: after a hundred thousand scans, up to a millimetre in each coordinate and 1e-9 rad in heading (modulo full turns). The points of its scans are drawn where the laser sees them from that pose, up to 1.21 mm. Without corrections this is the run of C114.", "quantifier": "all roundings to nearest of double and float, all library functions accurate to the last place, all runs of up to 100000 scans up to a metre apart within a kilometre, all corrections of up to 0.25 rad, beams of up to 100 m, both mountings", "why_tests_cant": "Headings are sums of corrections that are not normalised and differences that are; errors of rounding add up over a run of any length. A test has a few scans.", "anchors": ["src/ndt_mapper.cpp:340-364", "src/ndt_mapper.cpp:521-524", "src/ndt_mapper.cpp:541-544", "src/ndt_mapper.cpp:558-565"]}
{"id": "C148", "title": "The typical response in double precision", "statement": "With scores between -1 and 0 the typical response, as computed in doubles with the doubles next to 0.95 and 0.05, never leaves that range, is the exponentially weighted average of -0.5 and the scores up to 1e-14 after any number of scans, lies between the best and worst of them up to that, and forgets: after the same last k scores two nodes agree up to 0.95^k + 2e-14, whatever came before.", "quantifier": "all roundings to nearest, all sequences of scores between -1 and 0 of any length", "why_tests_cant": "The two constants do not add up to one in doubles and every step rounds three times; whether that drifts over a long run shows in no test.", "anchors": ["src/ndt_mapper.cpp:55", "src/ndt_mapper.cpp:518"]}
{"id": "C149", "title": "Information and weight of a constraint in double precision", "statement": "Inverting a covariance in doubles, with Eigen's cofactor formula and either order of summation, gives numbers within 1.4e-14 k^2 / B of the inverse (B bounds the entries, k = B^3 / |det|), exactly symmetric for a symmetric covariance; the Cholesky factorisation of a well conditioned information does not stop early and its lower triangular factor, with positive diagonal, multiplies back up to 1e-15 of the largest diagonal entry; from a positive definite covariance with k up to a million to the weight the error is at most 3e-14 k^2 / B. The diagonal covariance of a pose given from outside gives exactly diagonal information and weight, with relative errors of 1e-15 for variances between 1e-80 and 1e80; with variances of 1e-110 the weight is not a number.", "quantifier": "all roundings to nearest, both orders of summation, all covariances and informations with the stated bounds", "why_tests_cant": "Cancellation in the cofactors, in the determinant and in the pivots depends on every entry, and a pivot that rounds to zero or below leaves the factorisation half done without a word.", "anchors": ["src/constraint.cpp:52", "src/ceres_solver.cpp:132", "src/ndt_mapper.cpp:250"]}
{"id": "C150", "title": "From matching to the weight of a constraint in double precision", "statement": "When the scores of the offsets spread in every direction (mean square of the offsets at least l, offsets within X, 2 X^2 <= 60 l), the covariance that matchScan computes in doubles, inverted and factorised in doubles, gives a weight L with zeros above a positive diagonal whose product with its transpose is within (6e-13 r^6 + 4 n 2^-47 r^2) / (2 X^2) of the inverse of the exact matrix of second moments (r = 2 X^2 / l, n offsets). The same holds for any covariance within a relative 1e-6 of a symmetric, well conditioned one, although it need not itself be symmetric.", "quantifier": "all roundings to nearest, both orders of summation, all maps, scans, poses and searches with the stated bounds", "why_tests_cant": "The computed covariance is not symmetric in its last bits, so neither its inverse nor the factor is what a test with a symmetric matrix sees, and the errors of three stages are amplified by the spread of the scores.", "anchors": ["src/scan_matcher_ndt.cpp:146", "src/constraint.cpp:52", "src/ceres_solver.cpp:132"]}
{"id": "C151", "title": "The score of a point in double precision is that of the cell's points", "statement": "For a cell with at least five points within B of the origin that are spread in every direction by a variance of at least s, and for any point within 2 R of their mean in both coordinates (R <= B), the score computed in doubles (running mean and correlation, covariance, eigenvalues, inverse with the determinant limited or not, quadratic form, exponential) differs from the normal distribution of the points, with sample mean and covariance and the narrow direction limited to a thousandth of the wide one, by at most R^2 / s (4e-12 n B^2 / s + 7500 tau), where tau is the relative error of the eigenvalue solver, provided that this is at most 0.02. In a map built from scans, points of the same square are no farther apart than 1.01 times its side c, and the likelihood of any point differs from the normal distribution of the points in its square by at most c^2 / s (1.1e-12 n B^2 / s + 2000 tau).", "quantifier": "all roundings to nearest, all eigenvalue solvers with the stated error, all lists of points and all points with the stated bounds, all maps", "why_tests_cant": "The covariance is a difference of large numbers, the branch that limits the narrow direction is decided by rounded eigenvalues, and the errors pass an inverse and an exponential; a test sees only the points it uses.", "anchors": ["src/ndt_model.cpp:50", "src/ndt_model.cpp:65", "src/ndt_model.cpp:105", "src/ndt_model.cpp:162"]}
{"id": "C152", "title": "The offset chosen in double precision is nearly the best", "statement": "Under the bounds of C151 with an error of at most K for one likelihood, the offset that matchScan returns when it computes in doubles has a sum of normal distributions over its m beams, in exact arithmetic, that no other offset exceeds by more than 2 m (K + 2e-16 m). The returned score is minus the mean of that sum, up to K + 4e-16 m. If the caller's pose stays, no offset has a sum above m (K + 2e-16 m). An offset better than all others by more than these bounds is therefore the one returned.", "quantifier": "all roundings to nearest, all cosines and sines, all maps, scans, poses and searches with the stated bounds", "why_tests_cant": "The best of many offsets is found by comparing rounded sums, so it depends on the errors at every offset, not at one that a test looks at.", "anchors": ["src/scan_matcher_ndt.cpp:103", "src/scan_matcher_ndt.cpp:128", "src/scan_matcher_ndt.cpp:144", "src/ndt_model.cpp:178"]}
{"id": "C153", "title": "The weights of the particles in double precision are those of exact arithmetic", "statement": "For a map of squares as in C151, the score of a particle computed in doubles is minus the mean over the m beams of the normal distributions of the squares in which the beams end, up to K + 4e-16 m, where K is the error of one likelihood. For n particles whose exact scores add up to S, every weight after measure is the particle's share of S up to E = 3 n (K + 4e-16 m + 2e-16 n) / S, if E is at most 0.01; a particle with an exact score that is better by 2 (K + 4e-16 m) does not get the smaller weight; and the mean position is the mean weighted with the exact shares up to 2 n E times the largest coordinate.", "quantifier": "all roundings to nearest, all eigenvalue solvers with the stated error, all maps, scans and sets of particles with the stated bounds", "why_tests_cant": "The errors of the likelihoods pass two sums, two divisions and a weighted sum, and the divisor can be small; a test sees a few particles only.", "anchors": ["src/scan_matcher_ndt.cpp:156", "src/particle_filter.cpp:78", "src/particle_filter.cpp:163"]}
{"id": "C154", "title": "In double precision points are put into the right squares", "statement": "A point of a scan moved by a pose in doubles, with coordinates up to P, is where it is in exact arithmetic up to 2e-15 P, and the square that is computed for it is the one in which it is in exact arithmetic, or none if it is outside the map, unless it is within 5e-15 P of a line between squares. So the squares of a map hold the points they should; the likelihood of a moved point is the normal distribution at its exact position up to K + 6.2e-15 c P / s (squares of side c, points of a square spread by a variance s, K as in C151); and the weights and the mean position of C153 are those of exact positions, up to an error larger by that.", "quantifier": "all roundings to nearest, all cosines and sines right up to 2^-52, all maps, poses and points with the stated bounds", "why_tests_cant": "Whether a point falls into one square or the next is decided by a rounded turn, two rounded sums and a rounded division; a test sees only the points it uses, and none near a line unless it looks for them.", "anchors": ["src/ndt_model.cpp:137", "src/ndt_model.cpp:203", "src/scan_matcher_ndt.cpp:156", "src/particle_filter.cpp:78"]}
{"id": "C155", "title": "In double precision matching picks nearly the best offset of exact arithmetic", "statement": "A beam turned and shifted to an offset of the search in doubles, with coordinates up to P, is where it is in exact arithmetic up to 5e-15 P. So, unless some beam at some offset is within 1.25e-14 P of a line between squares, the offset that is chosen is nearly the best one for exact positions: summed over m beams, the normal distributions at the exact positions are larger at no other offset by more than twice m (K + 1.6e-14 c P / s + 2e-16 m) (squares of side c, points of a square spread by a variance s, K as in C151); the score is minus their mean up to K + 1.6e-14 c P / s + 4e-16 m; and an offset that is better than all others by more than that is chosen.", "quantifier": "all roundings to nearest, all cosines and sines right up to 2^-52, all maps, scans and searches with the stated bounds for which the search returns", "why_tests_cant": "The search compares sums of thousands of rounded terms at positions that went through five roundings; whether a comparison can turn out wrong depends on all of them together, and a test sees one search.", "anchors": ["src/scan_matcher_ndt.cpp:76", "src/scan_matcher_ndt.cpp:106", "src/scan_matcher_ndt.cpp:123", "src/ndt_model.cpp:203"]}
{"id": "C156", "title": "In double precision weighing and matching return wherever the robot is believed to be", "statement": "Wherever a particle or a scan is believed to be, weighing it and matching it against the map return: a point outside the map, however far, gets the likelihood zero. In double precision this is so for points left of the map or below it, however far, and for points a square or more beyond its right or upper edge, up to 2^32 - 1 squares from its origin. It fails for points 2^32 squares or more to the right or above: the column or row is converted to an unsigned int that it does not fit, which is undefined, before it is compared with the size of the map. One particle there is enough for measure, and one offset of the search for matchScan.", "quantifier": "all roundings to nearest, all cosines and sines right up to 2^-52, all maps, points, particles and searches", "why_tests_cant": "An initial pose is taken from a message without any check; a test with a pose outside the map gets a likelihood of zero as it should, unless the pose is absurdly far off and on the right side.", "anchors": ["src/ndt_model.cpp:203", "src/ndt_model.cpp:162", "src/scan_matcher_ndt.cpp:156", "src/scan_matcher_ndt.cpp:76", "src/ndt_mapper.cpp:188"]}
{"id": "C157", "title": "A scan of a wall of any direction stays where it is", "statement": "A scan of a straight wall of any direction, matched where it is against a map of that wall, stays where it is. It does if no other offset of the window keeps the scan on the wall (a wall that falls by one centimetre a metre, with the default parameters). It fails for the other directions: every place along the wall scores 1, whatever its direction, and the correction is the first offset of the search that keeps the scan on the wall, as long as the wall goes on until there: (0, -linear_size, 0) for a wall parallel to the y axis, and -linear_size in both coordinates for a wall at 45 degrees.", "quantifier": "all straight walls, all maps of them, all scans of two or more places on them, all window sizes and resolutions", "why_tests_cant": "The score of the pushed scan is perfect, and for most directions nothing happens; only walls along which the window has offsets are slippery, and those are the ones rooms are made of.", "anchors": ["src/scan_matcher_ndt.cpp:103-134", "src/ndt_model.cpp:83-96", "src/ndt_model.cpp:105-116"]}
{"id": "C158", "title": "A scan of two walls that are not parallel stays where it is", "statement": "In a map in which the points of every square are on a straight line, a point on the line of its square scores 1 and a point off it less, so that matching returns the first offset of the search at which every beam is on the line of its square. A scan that fits such a map where it is, and that sees two places of a wall and one of another wall not parallel to the first, is therefore left where it is, with the perfect score -1, if those three places do not get into squares of other walls for any offset of the window.", "quantifier": "all maps of straight walls with one wall a square, all scans, all window sizes and resolutions with an angular size below pi", "why_tests_cant": "It is the positive counterpart of C123 and C157 for every room and every scan: the zero offset is neither the first of the search nor preferred by it, so it is returned only because no offset searched earlier keeps all beams on their walls.", "anchors": ["src/scan_matcher_ndt.cpp:103-134", "src/ndt_model.cpp:83-96", "src/ndt_model.cpp:105-116"]}
{"id": "C159", "title": "A displaced scan is put back where it belongs", "statement": "A scan taken at one place and believed to be taken at another, off by an offset of the search window, is put back by matching it against a map of straight walls: the correction is that offset, with the perfect score -1, and the believed pose with the correction added is the place where the scan was taken. The scan must fit the map at its place and see two places of a wall and one of another wall not parallel to the first, and those three must not get into squares of other walls for any offset of the window.", "quantifier": "all maps of straight walls with one wall a square, all places, all scans, all offsets of the window, all window sizes and resolutions with an angular size below pi/2", "why_tests_cant": "A test moves a scan and checks a few displacements; that no other offset of the window, searched earlier or later, is taken for the true one needs an argument about all offsets and all rooms.", "anchors": ["src/scan_matcher_ndt.cpp:103-134", "src/ndt_model.cpp:83-96", "src/ndt_model.cpp:105-116"]}
{"id": "C160", "title": "The drift of odometry does not add up while localising", "statement": "A node that localises without the particle filter in a map of straight walls, and starts at its true place, is at its true place after every drive, however long: if odometry is off by nothing but an offset of the search window from one stop to the next, then after each stop the believed pose is exactly the true one, the stop is handled without an error, and the map is unchanged. At each stop the scan must fit the map at the true place and see two places of a wall and one of another wall not parallel to it, which do not get into squares of other walls for any offset of the window.", "quantifier": "all drives of any number of stops, all laser messages, all odometry, all maps of straight walls with one wall a square, all parameters with positive resolutions and an angular size below pi/2", "why_tests_cant": "Drives have no bound and errors of a part of a millimetre a stop would show only after long ones; that each stop starts again from the true place is an induction over the whole callback: range limit, travelled distance, prediction, points, matching, correction.", "anchors": ["src/ndt_mapper.cpp:267-455", "src/ndt_mapper.cpp:547-566", "src/scan_matcher_ndt.cpp:76-149"]}
{"id": "C161", "title": "A map made with an odometry that drifts is true", "statement": "A node that makes a map without the particle filter, and starts at its true place with scans at their true places, puts every scan of a drive, however long, into the map at the place where it was taken, and is at its true place after every stop, if odometry is off by nothing but an offset of the search window from one stop to the next. At each stop the scans of the rolling window must show straight walls, one a square, and the new scan must fit them at its true place and see two places of a wall and one of another wall not parallel to it, which do not get into squares of other walls for any offset of the window.", "quantifier": "all drives of any number of stops, all laser messages, all odometry, all walls, all parameters with positive resolutions and an angular size below pi/2", "why_tests_cant": "A map is made from the map so far, so an error of one scan is passed on to all later ones; that none is made is an induction over drives of any length and over all steps of the callback, with a new local map at each stop.", "anchors": ["src/ndt_mapper.cpp:267-455", "src/ndt_mapper.cpp:497-545", "src/scan_matcher_ndt.cpp:49-149"]}
{"id": "C162", "title": "Mapping, saving, loading and localising: every place is true though odometry drifts", "statement": "A node that starts without a map, makes a map on a drive and is saved, and a second node that starts with that file, is told by one true pose message where its robot is and localises on another drive: the scans of the map are at the places where they were taken, the second node has the same scans, and after every stop it is where its robot is. Odometry may be off by any offset of the search windows from one stop to the next on both drives; the conditions on what is seen are those of C160 and C161. No particle filter.", "quantifier": "all first messages, all drives of any number of stops on both sides, all odometry, all orders in which the file is read that keep the order within each topic, all true pose messages, all parameters of both nodes with positive resolutions and an angular size below pi/2", "why_tests_cant": "A test has one room and two drives; that neither the map nor the file nor the second drive lets an error in is a statement about all drives of any length and about the whole chain from the constructor to the last stop.", "anchors": ["src/ndt_mapper.cpp:48-143", "src/ndt_mapper.cpp:188-265", "src/ndt_mapper.cpp:267-455", "src/ndt_mapper.cpp:497-567", "src/graph.cpp:49-165"]}
{"id": "C163", "title": "Laser messages between the stops change nothing", "statement": "A node that has a scan, its laser, its first pose and a range limit that is not negative is left exactly as it is by a laser message at which odometry is less than the minimum distance and less than the minimum rotation from the last stop, whatever the message is and whether or not the odometry at its end is known. So the drives of C160 and C161 may have any number of such messages on the way from each stop to the next: the node ends in the same state as without them, at the true place, and a mapping node has no other scans than those of the stops.", "quantifier": "all drives of any number of stops with any number of messages between them, all messages, all odometry, all parameters with positive resolutions and an angular size below pi/2", "why_tests_cant": "A laser sends tens of messages between two stops and a test sees a few of them; that none of them leaves a trace in any part of the state of the node is an equation for all messages.", "anchors": ["src/ndt_mapper.cpp:267-363", "src/ndt_mapper.cpp:497-567"]}
{"id": "C164", "title": "The publishing thread is invisible to the other threads", "statement": "In every run of the node, with the steps of the laser thread, the loop thread, the services and the publishing thread in any order: when the steps of the publishing thread are taken out, the other steps still go through and leave every part of the state the same, but for the publishing thread's own (the flag that there is something to publish, its place, its grid and what was published last). Conversely steps of the publishing thread put into a run change nothing else, unless one of them fails itself. So the maps of C161 and the poses of C160 do not depend on when, or whether, the node publishes.", "quantifier": "all states of the node, all runs of any length in any order of the threads, all parameters", "why_tests_cant": "When the publishing thread runs is up to the scheduler, and a test sees one schedule; that no schedule has an effect on the map or the pose is a simulation between all runs with and without it.", "anchors": ["src/ndt_mapper.cpp:155-264", "src/ndt_mapper.cpp:267-680", "src/ndt_mapper.cpp:689-745"]}
{"id": "C165", "title": "The loop closure thread does nothing while the node localises", "statement": "From a node that is not mapping and whose loop closure thread waits (as after every start without mapping, with or without a map file), as long as no request turns mapping on, the steps of the loop closure thread may be left out of a run or put into it anywhere: the run comes to exactly the same result, state or failure, and mapping stays off and the thread waiting. Together with C164, the poses of C160 do not depend on what the loop closure thread and the publishing thread do meanwhile.", "quantifier": "all states of a localising node, all runs of any length in any order of the threads without a request for mapping, all parameters", "why_tests_cant": "The flag is read once per round by another thread than the one that sets it, and a test sees some schedules; that in no schedule a localising node moves the scans of its map or rebuilds its matcher for a candidate is an equation between all runs.", "anchors": ["src/ndt_mapper.cpp:569-687", "src/ndt_mapper.cpp:155-170", "src/ndt_mapper.cpp:93-143"]}
{"id": "C166", "title": "The loop closure thread does nothing while the map is short", "statement": "From a node whose loop closure thread waits or is about to count the scans, as long as the scans in the map and those that the run can add are no more than the rolling window and no map is loaded: the steps of the loop closure thread may be left out of the run or put into it anywhere, and the run comes to the same result, state or failure, but for whether that thread waits or counts. Together with C164, a map of C161 of no more scans than the rolling window does not depend on what the loop closure thread and the publishing thread do meanwhile.", "quantifier": "all states of the node with such a thread, all runs of any length in any order of the threads that stay within the rolling window and load no map, all parameters", "why_tests_cant": "The thread wakes up once a second and counts under a lock while the executor adds scans; a test sees some of the schedules, and the equation is between all runs with and without the thread.", "anchors": ["src/ndt_mapper.cpp:569-598", "src/ndt_mapper.cpp:267-567"]}
