{"id": "C01", "title": "Row-major index conversion is a bijection", "statement": "On a grid with at least one column and fewer than 2^32 cells, rowMajor2Grid(grid2RowMajor(i,j)) = (i,j) for every cell of the grid, grid2RowMajor(rowMajor2Grid(k)) = k for every index k of the grid, and grid2RowMajor maps cells to indices below size().", "quantifier": "every grid size, every cell, every index", "why_tests_cant": "the tests check one cell of one 2x3 grid; the claim is about all sizes including 32-bit wrap-around", "anchors": ["src/ergodic_exploration/grid.cpp:grid2RowMajor", "src/ergodic_exploration/grid.cpp:rowMajor2Grid"]}
{"id": "C02", "title": "gridBounds(i,j) is exact membership", "statement": "gridBounds(i,j) returns true exactly when row i and column j exist in the map.", "quantifier": "every grid (including the default-constructed empty one) and every pair of unsigned ints", "why_tests_cant": "unsigned subtraction ysize-1 wraps on an empty axis; two sampled cells cannot show it", "anchors": ["src/ergodic_exploration/grid.cpp:gridBounds"]}
{"id": "C03", "title": "gridBounds(idx) is exact membership", "statement": "gridBounds(idx) returns true exactly when idx is smaller than the number of cells.", "quantifier": "every grid and every index", "why_tests_cant": "wrap-around of xsize*ysize-1 is only visible on empty or huge grids", "anchors": ["src/ergodic_exploration/grid.cpp:gridBounds"]}
{"id": "C04", "title": "Constructors reject mismatched data", "statement": "A GridMap constructed from limits or from a message either throws, or holds exactly xsize*ysize data entries.", "quantifier": "all limits/messages and all data lengths", "why_tests_cant": "the product is computed in 32 bits; only huge sizes reveal acceptance of mismatched data", "anchors": ["src/ergodic_exploration/grid.cpp:GridMap", "include/ergodic_exploration/grid.hpp:axis_length"]}
{"id": "C05", "title": "The map equals the last message", "statement": "After any history of update() calls every observable of the map (sizes, limits, resolution, every cell) is determined by the last message alone.", "quantifier": "every sequence of occupancy-grid messages", "why_tests_cant": "no finite set of histories covers stale-field bugs", "anchors": ["src/ergodic_exploration/grid.cpp:update"]}
{"id": "C06", "title": "A GridMap always holds as many cells as it declares", "statement": "In every reachable state the number of stored cells equals xsize*ysize.", "quantifier": "every history of construction and update()", "why_tests_cant": "needs every history, including malformed messages; update() has no size check", "anchors": ["src/ergodic_exploration/grid.cpp:update", "src/ergodic_exploration/grid.cpp:GridMap"]}
{"id": "C07", "title": "Cell centre round trip", "statement": "world2Grid(grid2World(i,j)) = (i,j) and world2RowMajor(grid2World(k)) = k for every cell of the map.", "quantifier": "every origin, every positive resolution, every grid size, every cell", "why_tests_cant": "tests use one grid with resolution 0.5", "anchors": ["src/ergodic_exploration/grid.cpp:grid2World", "src/ergodic_exploration/grid.cpp:world2Grid", "src/ergodic_exploration/grid.cpp:world2RowMajor"]}
{"id": "C08", "title": "Point location", "statement": "For every point inside the closed map rectangle world2Grid returns a cell of the map whose closed square contains the point, and interior points get the unique half-open cell.", "quantifier": "every map, every point of the rectangle (boundaries included)", "why_tests_cant": "a continuum of points and the upper-boundary special case", "anchors": ["src/ergodic_exploration/grid.cpp:world2Grid"]}
{"id": "C09", "title": "Points outside the map are not located in the map", "statement": "For a point outside the map rectangle world2Grid never returns a cell of the map.", "quantifier": "every map and every point outside it", "why_tests_cant": "a continuum of points; the boundary decrement and the double to unsigned conversion misbehave only in thin strips", "anchors": ["src/ergodic_exploration/grid.cpp:world2Grid"]}
{"id": "C10", "title": "getCell(idx) is exact and bounds-checked", "statement": "getCell(idx) returns data[idx]/100 for idx < size and throws otherwise; it never reads outside the data, and returns a value in [0,1] or -0.01 for standard occupancy data.", "quantifier": "every grid and index", "why_tests_cant": "all indices and all data", "anchors": ["src/ergodic_exploration/grid.cpp:getCell"]}
{"id": "C11", "title": "getCell(i,j) rejects cells outside the map", "statement": "getCell(i,j) returns the value of cell (i,j) when it exists and throws otherwise.", "quantifier": "every grid and every pair (i,j)", "why_tests_cant": "aliasing of (0,xsize) with (1,0) needs the universal statement to be refuted or proved", "anchors": ["src/ergodic_exploration/grid.cpp:getCell", "src/ergodic_exploration/grid.cpp:grid2RowMajor"]}
{"id": "C12", "title": "Axis length and upper limit agree", "statement": "axis_length(lower, axis_upper(lower,res,n), res) = n for every n; the map built from a message spans exactly n cells per axis.", "quantifier": "all lower limits, positive resolutions and sizes", "why_tests_cant": "rounding of a quotient over a continuum", "anchors": ["include/ergodic_exploration/grid.hpp:axis_length", "include/ergodic_exploration/grid.hpp:axis_upper"]}
{"id": "C13", "title": "normalize_angle_PI", "statement": "The result lies in [-pi, pi), differs from the input by an integer multiple of 2 pi, and is a fixed point of the function.", "quantifier": "all angles", "why_tests_cant": "continuum of angles and all wrap counts", "anchors": ["include/ergodic_exploration/numerics.hpp:normalize_angle_PI"]}
{"id": "C14", "title": "normalize_angle_2PI", "statement": "The result lies in [0, 2 pi) and differs from the input by an integer multiple of 2 pi.", "quantifier": "all angles", "why_tests_cant": "continuum of angles", "anchors": ["include/ergodic_exploration/numerics.hpp:normalize_angle_2PI"]}
{"id": "C15", "title": "getYaw", "statement": "For every non-zero multiple of the quaternion of a pure yaw rotation getYaw returns that yaw in (-pi, pi]; the result does not depend on the scale of the quaternion.", "quantifier": "all yaws, all positive scales, all quaternions", "why_tests_cant": "continuum; case split at the gimbal thresholds", "anchors": ["include/ergodic_exploration/numerics.hpp:getYaw"]}
{"id": "C16", "title": "entropy", "statement": "For probabilities: entropy is symmetric, non-negative and at most ln 2; unknown cells (negative value) score higher than every known cell; certain cells (0 or 1) score lower than every other integer-percent cell.", "quantifier": "all probabilities / all int8 cell values", "why_tests_cant": "continuum of p", "anchors": ["include/ergodic_exploration/numerics.hpp:entropy"]}
{"id": "C17", "title": "Rigid transforms", "statement": "transform2d(x,y,a) acts as rotation then translation, preserves distances, composes; transform2dInv(T) is the inverse of T.", "quantifier": "all poses", "why_tests_cant": "continuum; an argument swap in the inverse is invisible for symmetric samples", "anchors": ["include/ergodic_exploration/numerics.hpp:transform2d", "include/ergodic_exploration/numerics.hpp:transform2dInv", "include/ergodic_exploration/numerics.hpp:polar2Cartesian"]}
{"id": "C18", "title": "integrate_twist is the exact flow of a constant body twist", "statement": "integrate_twist(x,u,0)=x (limit), integrate_twist(x,u,s+t)=integrate_twist(integrate_twist(x,u,s),u,t), and its time derivative is the omni-directional kinematics.", "quantifier": "all poses, twists with |w| above the tolerance, all times", "why_tests_cant": "continuum of states, twists and times; compares a closed form with an ODE", "anchors": ["include/ergodic_exploration/numerics.hpp:integrate_twist", "include/ergodic_exploration/models/omni.hpp:Omni"]}
{"id": "C19", "title": "integrate_twist treats slow rotation as translation with negligible error", "statement": "With |w| below 1e-12 the result is the straight-line motion; its heading differs from the exact one by less than 1e-12*|dt|.", "quantifier": "all poses, twists, times", "why_tests_cant": "continuum", "anchors": ["include/ergodic_exploration/numerics.hpp:integrate_twist"]}
{"id": "C20", "title": "validate_control decides collision-freeness of the simulated motion", "statement": "validate_control returns true exactly when none of the floor(|horizon/dt|) poses reached by repeatedly integrating the twist is in collision.", "quantifier": "all maps, poses, twists, dt, horizon", "why_tests_cant": "universal over all step counts; early exit", "anchors": ["include/ergodic_exploration/numerics.hpp:validate_control"]}
{"id": "C21", "title": "The displayed constant-twist path is the validated path", "statement": "constTwistPath has floor(|horizon/dt|) poses whose positions and headings are those validate_control checks for the same arguments.", "quantifier": "all poses, twists, dt, horizon", "why_tests_cant": "one normalises the heading each step, the other does not; equality needs induction over steps", "anchors": ["include/ergodic_exploration/numerics.hpp:constTwistPath", "include/ergodic_exploration/numerics.hpp:validate_control"]}
{"id": "C22", "title": "Replay buffer capacity and content", "statement": "After any sequence of append calls the buffer holds exactly the first min(n, buffer_size) states, in order; later states are dropped.", "quantifier": "all append histories, all capacities", "why_tests_cant": "every history", "anchors": ["src/ergodic_exploration/buffer.cpp:append"]}
{"id": "C23", "title": "Replay buffer sampling", "statement": "sampleMemory(xt) has xt.n_cols + min(stored,batch_size) columns, ends with xt unchanged, every earlier column is a stored state (all of them in order when stored <= batch_size), and never throws when xt has a column.", "quantifier": "all histories, all random draws, all trajectories", "why_tests_cant": "all random draws", "anchors": ["src/ergodic_exploration/buffer.cpp:sampleMemory"]}
{"id": "C24", "title": "Collision constructor guard", "statement": "Construction throws exactly when search_radius < boundary_radius or the occupied threshold is outside the documented probability range [0,1].", "quantifier": "all parameters", "why_tests_cant": "documented range is [0,1] but the check is [0,100]; thresholds between make every map obstacle-free", "anchors": ["src/ergodic_exploration/collision.cpp:Collision", "include/ergodic_exploration/collision.hpp:Collision"]}
{"id": "C25", "title": "Collision reports are sound", "statement": "collisionCheck returns true only if some cell of the map with value >= threshold lies within floor((boundary_radius+obstacle_threshold)/resolution) cells of the robot cell.", "quantifier": "all maps, poses, radii", "why_tests_cant": "all maps", "anchors": ["src/ergodic_exploration/collision.cpp:collisionCheck", "src/ergodic_exploration/collision.cpp:search", "src/ergodic_exploration/collision.cpp:bresenhamCircle", "src/ergodic_exploration/collision.cpp:checkCell"]}
{"id": "C26", "title": "Collision reports are complete", "statement": "If some cell of the map with value >= threshold lies within the collision radius of the robot cell, collisionCheck returns true.", "quantifier": "all maps, poses, radii", "why_tests_cant": "aliasing between consecutive circles and the un-searched disc inside the boundary radius need a universal statement", "anchors": ["src/ergodic_exploration/collision.cpp:search", "src/ergodic_exploration/collision.cpp:bresenhamCircle"]}
{"id": "C27", "title": "Circle sweep geometry", "statement": "The circle sweep of radius r terminates, visits only cells whose distance to the centre is within half a cell of r, is symmetric under quarter turns, and contains the four axis cells for r >= 1.", "quantifier": "all radii", "why_tests_cant": "all radii; termination", "anchors": ["src/ergodic_exploration/collision.cpp:bresenhamCircle"]}
{"id": "C28", "title": "The three collision queries agree", "statement": "minDistance, minDirection and collisionCheck classify every pose identically; in the obstacle state the distance is that of a nearest visited obstacle cell, exceeds the collision radius, and |displacement| = distance + boundary_radius.", "quantifier": "all maps and poses", "why_tests_cant": "relational claim over all maps", "anchors": ["src/ergodic_exploration/collision.cpp:minDistance", "src/ergodic_exploration/collision.cpp:minDirection", "src/ergodic_exploration/collision.cpp:collisionCheck"]}
{"id": "C29", "title": "Collision checking is monotone in the map", "statement": "Raising cell values or lowering the occupied threshold never turns a collision into a non-collision.", "quantifier": "all pairs of comparable maps, all poses", "why_tests_cant": "two-run property over all maps", "anchors": ["src/ergodic_exploration/collision.cpp:collisionCheck"]}
{"id": "C30", "title": "Collision queries never fail on a well-formed map", "statement": "For a map whose data matches its size and a pose inside the map no collision query throws or has undefined behaviour.", "quantifier": "all well-formed maps and poses in them", "why_tests_cant": "all maps; memory safety", "anchors": ["src/ergodic_exploration/collision.cpp:checkCell", "src/ergodic_exploration/grid.cpp:getCell"]}
{"id": "C31", "title": "Unknown and off-map cells are free", "statement": "Cells with negative value (unknown) and positions outside the map never produce a collision or an obstacle report, for every threshold in [0,1].", "quantifier": "all maps, thresholds, poses", "why_tests_cant": "all maps", "anchors": ["src/ergodic_exploration/collision.cpp:checkCell"]}
{"id": "C32", "title": "Ray tracing marks the right cells", "statement": "For two distinct cells the ray trace marks exactly max(|dx|,|dy|) distinct cells, including the start, excluding the end, all inside the bounding box of the two cells.", "quantifier": "all pairs of cells in all octants", "why_tests_cant": "all octants and lengths; off-by-one at either end", "anchors": ["src/ergodic_exploration/mapping.cpp:rayTrace", "src/ergodic_exploration/mapping.cpp:lineLow", "src/ergodic_exploration/mapping.cpp:lineHigh", "src/ergodic_exploration/mapping.cpp:lineDiag"]}
{"id": "C33", "title": "Ray tracing follows the segment", "statement": "Every marked cell is within half a cell (along the minor axis) of the straight segment and consecutive cells are 8-neighbours.", "quantifier": "all pairs of cells", "why_tests_cant": "all lengths; needs a loop invariant", "anchors": ["src/ergodic_exploration/mapping.cpp:lineLow", "src/ergodic_exploration/mapping.cpp:lineHigh", "src/ergodic_exploration/mapping.cpp:lineDiag"]}
{"id": "C34", "title": "Cell update is Bayes' rule", "statement": "Updating a cell with value c in 1..99 stores trunc(100*p') where p' is the Bayes posterior of c/100 under the sensor model (0.90 occupied / 0.35 free).", "quantifier": "all cell values", "why_tests_cant": "exact real arithmetic of logs and exponentials", "anchors": ["src/ergodic_exploration/mapping.cpp:updateCell", "src/ergodic_exploration/mapping.cpp:logOdds2Prob", "src/ergodic_exploration/mapping.cpp:prob2LogOdds"]}
{"id": "C35", "title": "Evidence moves cells in the right direction and can be reversed", "statement": "Occupied evidence never lowers and free evidence never raises a cell, and enough contrary evidence can always reverse a cell's state.", "quantifier": "all cells, all evidence sequences", "why_tests_cant": "all evidence histories; absorbing values 0 and 100 are only visible over histories", "anchors": ["src/ergodic_exploration/mapping.cpp:updateCell"]}
{"id": "C36", "title": "updateMap changes only the cells on the rays", "statement": "updateMap keeps the map's geometry, changes only cells on a traced ray or at a beam end point, and returns false with the map unchanged when the robot is outside the map.", "quantifier": "all scans, poses and maps", "why_tests_cant": "all scans", "anchors": ["src/ergodic_exploration/mapping.cpp:updateMap"]}
{"id": "C37", "title": "Map values stay valid percentages", "statement": "If all cells are in [0,100] then after any sequence of scans all cells are in [0,100].", "quantifier": "all scan histories", "why_tests_cant": "all histories", "anchors": ["src/ergodic_exploration/mapping.cpp:updateMap", "src/ergodic_exploration/mapping.cpp:updateCell"]}
{"id": "C38", "title": "Mapping accepts standard occupancy maps", "statement": "On a well-formed map with the standard values -1..100 and every scan whose end points are in the map, updateMap has no exception and no undefined behaviour.", "quantifier": "all maps with standard values, all scans", "why_tests_cant": "unknown cells (-1) make the log-odds NaN", "anchors": ["src/ergodic_exploration/mapping.cpp:updateCell", "src/ergodic_exploration/mapping.cpp:updateMap"]}
{"id": "C39", "title": "Basis numbers enumerate the frequency square", "statement": "Column i*n+j of the basis numbers is (j,i); the n^2 columns list every pair in [0,n)^2 exactly once.", "quantifier": "all n", "why_tests_cant": "all n", "anchors": ["src/ergodic_exploration/basis.cpp:Basis"]}
{"id": "C40", "title": "Fourier basis and its gradient", "statement": "Every basis value is in [-1,1], the first one is 1, and gradFourierBasis is the derivative of fourierBasis in x and in y.", "quantifier": "all domains, frequencies and points", "why_tests_cant": "derivative over a continuum", "anchors": ["src/ergodic_exploration/basis.cpp:fourierBasis", "src/ergodic_exploration/basis.cpp:gradFourierBasis"]}
{"id": "C41", "title": "Trajectory coefficients are time averages", "statement": "trajCoeff is the mean of the basis over the columns: in [-1,1], first coefficient 1, independent of column order, and the coefficient of a concatenation is the length-weighted mean.", "quantifier": "all trajectories", "why_tests_cant": "all lengths and orders", "anchors": ["src/ergodic_exploration/basis.cpp:trajCoeff"]}
{"id": "C42", "title": "Spatial coefficients", "statement": "spatialCoeff is linear in the target values; for a normalised non-negative target the first coefficient is 1 and all are in [-1,1].", "quantifier": "all targets and grids", "why_tests_cant": "continuum", "anchors": ["src/ergodic_exploration/basis.cpp:spatialCoeff"]}
{"id": "C43", "title": "Gaussian evaluation", "statement": "A Gaussian with non-zero sigmas evaluates to a value in (0,1], equal to 1 exactly at the mean, symmetric about it; the translated evaluation at pt equals the untranslated one at pt+trans.", "quantifier": "all means, sigmas, points, translations", "why_tests_cant": "continuum", "anchors": ["include/ergodic_exploration/target.hpp:Gaussian"]}
{"id": "C44", "title": "Target distribution is normalised", "statement": "fill returns one non-negative value per grid point and the values sum to 1.", "quantifier": "all targets and all grids", "why_tests_cant": "division by a zero sum for an empty target produces NaN", "anchors": ["src/ergodic_exploration/target.cpp:fill", "src/ergodic_exploration/target.cpp:evaluate"]}
{"id": "C45", "title": "Target list operations", "statement": "addGaussian appends, deleteGaussian(idx) removes exactly the idx-th for idx < size; evaluate is the sum over the current list and does not depend on insertion order.", "quantifier": "all histories of add/delete", "why_tests_cant": "all histories", "anchors": ["src/ergodic_exploration/target.cpp:addGaussian", "src/ergodic_exploration/target.cpp:deleteGaussian", "src/ergodic_exploration/target.cpp:evaluate"]}
{"id": "C46", "title": "Target markers", "statement": "markers publishes one marker per Gaussian with distinct ids, centred at the mean, with x extent from sigma_x and y extent from sigma_y.", "quantifier": "all Gaussian lists", "why_tests_cant": "eigenvalue ordering only matters when sigma_x > sigma_y", "anchors": ["src/ergodic_exploration/target.cpp:markers"]}
{"id": "C47", "title": "Model Jacobians", "statement": "For Cart, SimpleCart, Mecanum and Omni, fdx is the derivative of the dynamics in the state and fdu the derivative in the control.", "quantifier": "all states, controls, geometry parameters", "why_tests_cant": "tests compare at one point; the claim is the derivative everywhere", "anchors": ["include/ergodic_exploration/models/cart.hpp:Cart", "include/ergodic_exploration/models/cart.hpp:SimpleCart", "include/ergodic_exploration/models/omni.hpp:Mecanum", "include/ergodic_exploration/models/omni.hpp:Omni"]}
{"id": "C48", "title": "Wheel and twist models agree", "statement": "Driving Cart (Mecanum) with wheel speeds equals driving SimpleCart (Omni) with wheels2Twist of them.", "quantifier": "all states, wheel speeds, geometry", "why_tests_cant": "continuum", "anchors": ["include/ergodic_exploration/models/cart.hpp:wheels2Twist", "include/ergodic_exploration/models/omni.hpp:wheels2Twist"]}
{"id": "C49", "title": "Differential drive has no lateral motion", "statement": "Cart and SimpleCart velocities are along the heading; SimpleCart rejects twists with |vy| >= 1e-12 and accepts all others.", "quantifier": "all states and controls", "why_tests_cant": "continuum", "anchors": ["include/ergodic_exploration/models/cart.hpp:SimpleCart", "include/ergodic_exploration/models/cart.hpp:Cart"]}
{"id": "C50", "title": "RK4 step accuracy", "statement": "One RK4 step is exact for constant derivatives, equals the degree-4 Taylor polynomial for linear systems, advances the heading exactly, and for the omni model with constant twist differs from the exact motion by at most |v| dt (w dt)^4/2880 per axis-norm.", "quantifier": "all states, twists, step sizes", "why_tests_cant": "error bound over a continuum", "anchors": ["include/ergodic_exploration/integrator.hpp:step"]}
{"id": "C51", "title": "Forward simulation", "statement": "solve returns floor(|horizon/dt|) states, headings in [-pi,pi), each state is the RK4 step of the previous one, and column i depends only on x0 and control columns 0..i.", "quantifier": "all models, controls, horizons", "why_tests_cant": "all lengths; two-run causality", "anchors": ["include/ergodic_exploration/integrator.hpp:solve"]}
{"id": "C52", "title": "Backward co-state pass", "statement": "Co-state column i is the backward RK4 step of column i+1 (terminal value after the last), depends only on columns >= i, is linear in the gradients, and is zero when gradients and terminal value are zero.", "quantifier": "all trajectories and gradients", "why_tests_cant": "all lengths", "anchors": ["include/ergodic_exploration/integrator.hpp:solve", "include/ergodic_exploration/integrator.hpp:step"]}
{"id": "C53", "title": "RK45 step is consistent", "statement": "For a constant derivative the Fehlberg step advances exactly by h*f and reports zero error.", "quantifier": "all states, derivatives, step sizes", "why_tests_cant": "a wrong coefficient is invisible at loose tolerances", "anchors": ["include/ergodic_exploration/integrator.hpp:RungeKutta45"]}
{"id": "C54", "title": "RK45 integration bookkeeping", "statement": "RungeKutta45::solve terminates after at most max_iter+1 iterations, accepted times increase strictly and never pass the horizon, every stored column index is inside the allocated matrix.", "quantifier": "all models, tolerances, horizons, step bounds", "why_tests_cant": "all iteration histories", "anchors": ["include/ergodic_exploration/integrator.hpp:RungeKutta45"]}
{"id": "C55", "title": "Dynamic window respects limits", "statement": "Every sampled twist is within the velocity limits and reachable under the acceleration limits.", "quantifier": "all current twists, limits and sample counts", "why_tests_cant": "odometry outside the limits and sample count 1 are corner cases", "anchors": ["src/ergodic_exploration/dynamic_window.cpp:window", "src/ergodic_exploration/dynamic_window.cpp:control"]}
{"id": "C56", "title": "DWA success means collision-free and optimal", "statement": "When control returns true, no pose of the twist's rollout is in collision and no sampled collision-free twist has a lower cost (ties resolved to the first sample).", "quantifier": "all maps, poses, references, sample counts", "why_tests_cant": "all maps and all sample grids", "anchors": ["src/ergodic_exploration/dynamic_window.cpp:control", "src/ergodic_exploration/dynamic_window.cpp:objective"]}
{"id": "C57", "title": "DWA failure means every sample collides", "statement": "control returns false exactly when every sampled twist collides, and then the twist is zero.", "quantifier": "all maps, poses, references", "why_tests_cant": "all maps", "anchors": ["src/ergodic_exploration/dynamic_window.cpp:control"]}
{"id": "C58", "title": "DWA reference indexing", "statement": "With dwa_horizon <= ec_horizon (the check made at start-up) every index into the reference trajectory is in range.", "quantifier": "all time steps and horizons", "why_tests_cant": "index arithmetic over continuum of dt/horizon values", "anchors": ["src/ergodic_exploration/dynamic_window.cpp:objective", "src/exploration_cart_node.cpp:main"]}
{"id": "C59", "title": "Ergodic controls respect limits", "statement": "After control() every column of the stored signal, in particular the returned twist, is within [umin, umax].", "quantifier": "all histories, maps, targets, models", "why_tests_cant": "all histories; NaN behaviour of clamp", "anchors": ["include/ergodic_exploration/ergodic_control.hpp:updateControl", "include/ergodic_exploration/ergodic_control.hpp:control"]}
{"id": "C60", "title": "Receding horizon", "statement": "control() simulates forward with the previous signal shifted by one column and a zero last column, replaces every column, returns the first column, and optTraj()/path() replay the stored signal from the last pose.", "quantifier": "all call histories", "why_tests_cant": "history dependence", "anchors": ["include/ergodic_exploration/ergodic_control.hpp:control", "include/ergodic_exploration/ergodic_control.hpp:optTraj", "include/ergodic_exploration/ergodic_control.hpp:path"]}
{"id": "C61", "title": "The controller follows the current target and map", "statement": "After setTarget or a map change the next control() uses the Fourier coefficients of the current target in the current map frame.", "quantifier": "all histories of setTarget/control", "why_tests_cant": "coefficients are cached on map size only; needs histories", "anchors": ["include/ergodic_exploration/ergodic_control.hpp:configTarget", "include/ergodic_exploration/ergodic_control.hpp:setTarget"]}
{"id": "C62", "title": "Target grid covers the map", "statement": "The target grid has (nx)(ny) points at multiples of the resolution, starting at the origin and covering the map size to within half a resolution.", "quantifier": "all map sizes and resolutions", "why_tests_cant": "continuum", "anchors": ["include/ergodic_exploration/ergodic_control.hpp:configTarget"]}
{"id": "C63", "title": "Barrier gradient", "statement": "gradBarrier is the gradient of 25*((x-(L-0.05))_+^2 + (0.05-x)_+^2) per axis; zero in the interior; pushes back inside.", "quantifier": "all positions and domains", "why_tests_cant": "derivative at the kinks over a continuum", "anchors": ["include/ergodic_exploration/ergodic_control.hpp:gradBarrier"]}
{"id": "C64", "title": "Control update minimises the Hamiltonian", "statement": "For a diagonal positive control weight the clamped update is the minimiser of 1/2 u'Ru + rho'Bu over the box [umin,umax].", "quantifier": "all states, co-states, weights, limits", "why_tests_cant": "optimality over a continuum", "anchors": ["include/ergodic_exploration/ergodic_control.hpp:updateControl"]}
{"id": "C65", "title": "Gradients are taken along the predicted trajectory", "statement": "The columns used for the backward pass are exactly the predicted trajectory translated into the map frame, whatever the memory content and random draws.", "quantifier": "all histories and draws", "why_tests_cant": "all random draws", "anchors": ["include/ergodic_exploration/ergodic_control.hpp:control", "src/ergodic_exploration/buffer.cpp:sampleMemory"]}
{"id": "C66", "title": "Constructor rejects horizons with fewer than two steps", "statement": "ErgodicControl construction throws whenever floor(|horizon/dt|) < 2.", "quantifier": "all dt and horizons", "why_tests_cant": "the guard tests == 1; zero steps slips through", "anchors": ["include/ergodic_exploration/ergodic_control.hpp:ErgodicControl"]}
{"id": "C67", "title": "No command before map and pose", "statement": "No twist is published before both a map and a robot pose have been received; afterwards exactly one per loop iteration.", "quantifier": "all event schedules", "why_tests_cant": "all schedules", "anchors": ["include/ergodic_exploration/exploration.hpp:control"]}
{"id": "C68", "title": "Published twists are safe", "statement": "Every published twist either passes validation on the current map and pose, or comes from a successful dynamic window search (its rollout is collision-free), or is zero.", "quantifier": "all event schedules and histories", "why_tests_cant": "all histories", "anchors": ["include/ergodic_exploration/exploration.hpp:control"]}
{"id": "C69", "title": "DWA twists are followed for at most the DWA horizon", "statement": "After a successful DWA search the same twist is published for at most dwa_steps iterations before the ergodic controller replans.", "quantifier": "all schedules", "why_tests_cant": "all histories; dwa_steps = 0 corner case", "anchors": ["include/ergodic_exploration/exploration.hpp:control"]}
{"id": "C70", "title": "Published twists respect velocity limits", "statement": "Every published twist is within the configured velocity limits; the cart node always publishes zero lateral velocity.", "quantifier": "all histories, all odometry", "why_tests_cant": "odometry values outside limits; all histories", "anchors": ["include/ergodic_exploration/exploration.hpp:control", "src/exploration_cart_node.cpp:main", "src/exploration_omni_node.cpp:main"]}
{"id": "C71", "title": "Map updates are atomic for the control loop", "statement": "Under every interleaving of the callback thread with the control loop, every collision check sees a consistent map.", "quantifier": "all interleavings", "why_tests_cant": "scheduling", "anchors": ["include/ergodic_exploration/exploration.hpp:mapCallback", "src/ergodic_exploration/grid.cpp:update", "src/exploration_cart_node.cpp:main"]}
{"id": "C72", "title": "A mis-configured horizon never commands the robot", "statement": "If dwa_horizon > ec_horizon no twist is ever published.", "quantifier": "all parameters and schedules", "why_tests_cant": "all schedules", "anchors": ["src/exploration_cart_node.cpp:main", "src/exploration_omni_node.cpp:main"]}
{"id": "C73", "title": "Every localised pose is remembered until memory is full", "statement": "Every iteration with a successful transform lookup appends the pose to memory, whatever the controller state; the memory never exceeds its capacity.", "quantifier": "all schedules", "why_tests_cant": "all schedules", "anchors": ["include/ergodic_exploration/exploration.hpp:control", "include/ergodic_exploration/ergodic_control.hpp:addStateMemory"]}
{"id": "C74", "title": "Frequency weights", "statement": "The weight of column (k1,k2) is (1+|k|)^(-3/2): 1 for the constant function, in (0,1], strictly decreasing in |k|.", "quantifier": "all basis sizes and columns", "why_tests_cant": "all basis sizes", "anchors": ["src/ergodic_exploration/basis.cpp:Basis"]}
{"id": "C75", "title": "Metric gradient", "statement": "gradErgodicMetric returns expl_weight*N/2 times the gradient of the ergodic metric sum_k lambda_k (c_k - phi_k)^2 with respect to the trajectory points, c_k being the time average of the basis functions over the N points.", "quantifier": "all trajectories, targets, domains, basis sizes", "why_tests_cant": "derivative over a continuum", "anchors": ["include/ergodic_exploration/ergodic_control.hpp:gradErgodicMetric"]}
{"id": "C76", "title": "Simulated motion is never faster than its twist", "statement": "Every pose simulated from a twist (by validation, the dynamic window or the planned trajectory) is within linear speed times elapsed time of the start; along a planned trajectory the bound holds with the speed the velocity limits allow.", "quantifier": "all poses, twists, step sizes, horizons, histories", "why_tests_cant": "a bound over a continuum; the cancellation in the rotating case is invisible at sampled twists", "anchors": ["include/ergodic_exploration/numerics.hpp:integrate_twist", "include/ergodic_exploration/numerics.hpp:validate_control", "include/ergodic_exploration/integrator.hpp:step", "include/ergodic_exploration/ergodic_control.hpp:optTraj"]}
{"id": "C77", "title": "The node keeps running", "statement": "With sane parameters, recoverable odometry and a map the detector can work with, a robot that is inside the map at every iteration never makes the node throw or run into undefined behaviour.", "quantifier": "all event histories, all random draws", "why_tests_cant": "every history; failures hide in simulated poses beyond the map edge", "anchors": ["include/ergodic_exploration/exploration.hpp:control", "include/ergodic_exploration/numerics.hpp:validate_control", "src/ergodic_exploration/dynamic_window.cpp:control", "src/ergodic_exploration/collision.cpp:collisionCheck"]}
{"id": "C78", "title": "When a node starts", "statement": "With sane time steps and velocity limits the start-up of a node succeeds exactly when there are enough control weights, no target standard deviation is zero, the search radius is not below the boundary radius and the occupied threshold is accepted; too few control weights always make it throw out_of_range.", "quantifier": "all parameters", "why_tests_cant": "exact characterisation over all parameters", "anchors": ["src/exploration_cart_node.cpp:main", "src/exploration_omni_node.cpp:main", "src/ergodic_exploration/collision.cpp:Collision", "include/ergodic_exploration/ergodic_control.hpp:ErgodicControl"]}
{"id": "C79", "title": "Grid round trip with rounding", "statement": "With binary64 rounding, world2Grid of grid2World of a cell is that cell.", "quantifier": "all maps and cells, all round-to-nearest arithmetics", "why_tests_cant": "C07 is about exact arithmetic; rounding errors over all origins and resolutions cannot be sampled", "anchors": ["src/ergodic_exploration/grid.cpp:grid2World", "src/ergodic_exploration/grid.cpp:world2Grid"]}
{"id": "C80", "title": "Points of the map are found with rounding", "statement": "With binary64 rounding, world2Grid of every point of the map (and up to half a cell beyond the upper edges) is a cell of the map, and the point is in that cell or at most 2^-17 of a cell outside; the upper corner axis_upper computes is in the map.", "quantifier": "all maps and points, all round-to-nearest arithmetics", "why_tests_cant": "continuum of points and rounding errors at cell borders", "anchors": ["src/ergodic_exploration/grid.cpp:world2Grid", "include/ergodic_exploration/grid.hpp:axis_upper"]}
{"id": "C81", "title": "Counts computed from decimal parameters", "statement": "A horizon of n time steps gives n steps and a radius of n cells gives n cells, when the parameters are read as decimals and divided with binary64 rounding.", "quantifier": "all decimal horizons, time steps, radii, resolutions", "why_tests_cant": "0.3/0.1 < 3 in binary64; which pairs lose a step cannot be sampled", "anchors": ["include/ergodic_exploration/numerics.hpp:validate_control", "src/ergodic_exploration/dynamic_window.cpp:DynamicWindow", "include/ergodic_exploration/ergodic_control.hpp:ErgodicControl", "src/ergodic_exploration/collision.cpp:collisionCheck"]}
{"id": "C82", "title": "Angle normalisation with rounding", "statement": "With binary64 rounding normalize_angle_PI returns a value in [-PI, PI) and normalize_angle_2PI one in [0, 2PI), with PI the constant of the code.", "quantifier": "all angles, all round-to-nearest arithmetics", "why_tests_cant": "end points are reached only for particular tiny negative angles", "anchors": ["include/ergodic_exploration/numerics.hpp:normalize_angle_PI", "include/ergodic_exploration/numerics.hpp:normalize_angle_2PI"]}
{"id": "C83", "title": "Map values with rounding", "statement": "With binary64 rounding and any library whose exp is not negative, cells that are percentages stay percentages under any sequence of scans, and a scan whose end points convert to indices is processed without undefined behaviour.", "quantifier": "all scan histories, all round-to-nearest arithmetics and libraries", "why_tests_cant": "all histories and all libraries", "anchors": ["src/ergodic_exploration/mapping.cpp:updateMap", "src/ergodic_exploration/mapping.cpp:updateCell"]}
{"id": "C84", "title": "Bayes update with rounding", "statement": "With binary64 rounding and a library whose log and exp are right to 40 bits, an observed cell takes its Bayes posterior in percent rounded down.", "quantifier": "all cell values, all round-to-nearest arithmetics and accurate libraries", "why_tests_cant": "errors of log and exp differ between libraries; whole-percent posteriors sit on the rounding border", "anchors": ["src/ergodic_exploration/mapping.cpp:updateCell", "src/ergodic_exploration/mapping.cpp:logOdds2Prob", "src/ergodic_exploration/mapping.cpp:prob2LogOdds"]}
{"id": "C85", "title": "Velocity window with rounding", "statement": "With binary64 rounding every sampled twist respects the velocity limits.", "quantifier": "all limits, measured velocities, sample counts and round-to-nearest arithmetics", "why_tests_cant": "samples accumulate a rounded increment; which limits are exceeded cannot be sampled", "anchors": ["src/ergodic_exploration/dynamic_window.cpp:control"]}
{"id": "C86", "title": "Reference column with rounding", "statement": "With binary64 rounding, decimal horizons that are whole numbers of their time steps and a window no longer than the controller horizon, every simulated pose of the dynamic window is matched with an existing column of the reference.", "quantifier": "all decimal parameters, all round-to-nearest arithmetics", "why_tests_cant": "depends on which quotient loses a step to rounding", "anchors": ["src/ergodic_exploration/dynamic_window.cpp:objective", "include/ergodic_exploration/ergodic_control.hpp:ErgodicControl"]}
{"id": "C87", "title": "Collision checks with rounding", "statement": "With binary64 rounding no query fails for a pose in the map, a reported collision comes with an occupied cell within the padding, and an occupied cell straight ahead within the padding is reported.", "quantifier": "all maps, poses, radii, all round-to-nearest arithmetics", "why_tests_cant": "poses at cell borders and radii at whole cells; continuum", "anchors": ["src/ergodic_exploration/collision.cpp:collisionCheck", "src/ergodic_exploration/collision.cpp:minDistance", "src/ergodic_exploration/collision.cpp:minDirection"]}
{"id": "C88", "title": "Parameters are read as written", "statement": "A node that starts has read every count as it is on the parameter server and one target per mean; at most 46340 basis functions per axis are supported and anything else fails at start-up.", "quantifier": "all parameter values, every arithmetic", "why_tests_cant": "int to unsigned conversions, a wrapping product and an int counter only show at extreme values; missing values are silently created by XmlRpc", "anchors": ["src/exploration_cart_node.cpp:main", "src/exploration_omni_node.cpp:main", "src/ergodic_exploration/basis.cpp:Basis"]}
{"id": "C89", "title": "Closed-loop safety", "statement": "A robot that starts free on an unchanging map and carries out every published twist exactly for one loop period is free at every iteration, when the period is one of the instants checked by the validation and by the dynamic window.", "quantifier": "all node parameters that start, event histories of any length, every map and period, with or without transform lookups that fail (exact arithmetic)", "why_tests_cant": "safety of a whole run composes validation, window search, holding of a twist and the motion; a test drives finitely many runs", "anchors": ["include/ergodic_exploration/exploration.hpp:control", "include/ergodic_exploration/numerics.hpp:validate_control", "src/ergodic_exploration/dynamic_window.cpp:control", "src/ergodic_exploration/dynamic_window.cpp:objective"]}
{"id": "C90", "title": "getYaw of any orientation", "statement": "Whenever the forward axis of the robot is not vertical, getYaw returns its heading.", "quantifier": "all non-zero quaternions (exact arithmetic)", "why_tests_cant": "the special cases within 0.26 degrees of the vertical are never reached by a ground robot in a test", "anchors": ["include/ergodic_exploration/numerics.hpp:getYaw"]}
{"id": "C91", "title": "The planned trajectory is the motion of the planned controls", "statement": "After control(), pose i of the replayed trajectory has the heading a robot carrying out the first i+1 stored controls exactly would have, and its position up to (i+1) vmax |dt| (wmax dt)^4 / 2880, for both robots.", "quantifier": "all controllers built by any history, maps, poses, draws, control sequences and steps (exact arithmetic)", "why_tests_cant": "a test compares the plan with another integrator on a few trajectories; the bound holds for every sequence of controls", "anchors": ["include/ergodic_exploration/ergodic_control.hpp:optTraj", "include/ergodic_exploration/integrator.hpp:solve", "include/ergodic_exploration/integrator.hpp:step"]}
{"id": "C92", "title": "Co-states are exact and bounded, and so are the planned controls", "statement": "For every model of the package the backward pass returns the exact solution of the co-state equation with the gradients and the Jacobian held constant over each step; k steps before the end of the horizon the co-state is at most k|dt|G in the plane and (k dt)^2 V G/2 in the heading, where G bounds the gradients and V the speeds of the plan; the planned controls are at most that times the inverse control weights, with G = 2 pi n^2 w (1/lx + 1/ly) + 100 (d + 0.05) for a rollout that stays within d of the map.", "quantifier": "all step sizes, horizons, trajectories, controls, gradients; all controllers with diagonal weights and limits containing zero (exact arithmetic)", "why_tests_cant": "a numeric integrator can only be compared at samples; the exactness and the growth law are statements about all inputs", "anchors": ["include/ergodic_exploration/integrator.hpp:solve", "include/ergodic_exploration/integrator.hpp:step", "include/ergodic_exploration/ergodic_control.hpp:rhodot", "include/ergodic_exploration/ergodic_control.hpp:gradErgodicMetric", "include/ergodic_exploration/ergodic_control.hpp:gradBarrier", "include/ergodic_exploration/ergodic_control.hpp:updateControl", "include/ergodic_exploration/models/cart.hpp:fdx", "include/ergodic_exploration/models/omni.hpp:fdx"]}
{"id": "C93", "title": "Radii in cells on a map from a message", "statement": "On a map whose resolution is the float32 nearest to a decimal number d, a radius that is N times d is counted as N cells by the collision queries.", "quantifier": "all decimal resolutions with at most seven places between 1 mm and 1 km, all radii up to 32000 cells, all maps and poses, any rounding to nearest of the doubles", "why_tests_cant": "which resolutions lose a cell depends on the direction in which float32 rounds them; a test with double resolutions never sees it", "anchors": ["src/ergodic_exploration/grid.cpp:GridMap", "src/ergodic_exploration/collision.cpp:collisionCheck", "src/ergodic_exploration/collision.cpp:minDistance", "src/ergodic_exploration/collision.cpp:minDirection"]}
{"id": "C94", "title": "The trajectory of the embedded integrator starts where the body starts", "statement": "The trajectory returned by RungeKutta45::solve, which is a quartic fitted to the accepted samples, has one column per time step and starts at the initial state.", "quantifier": "all models, initial states, controls, step limits, tolerances; every solver that returns least-squares fits (exact arithmetic)", "why_tests_cant": "for motions that happen to be quartic, such as the ones in the unit tests, the fit is exact; the defect shows for others only", "anchors": ["include/ergodic_exploration/integrator.hpp:solve"]}
{"id": "C95", "title": "The planned change of the controls lowers the planning objective", "statement": "In continuous time, pairing the co-state of a plan with a change of its controls through the input Jacobian gives the derivative of the objective (distance from ergodicity, barrier and control effort) with respect to that change. Moving the plan towards the controller's update therefore lowers the objective for every sufficiently small step, at a rate of at least the squared distance between plan and update, and the update leaves a plan alone exactly when no admissible change has a negative rate. The full step the code takes may still raise the objective.", "quantifier": "all continuous plans within the limits, poses, rectangles, numbers of basis functions, target coefficients, earlier visits, positive weights and horizons; omnidirectional and cart model (exact arithmetic, continuous time)", "why_tests_cant": "it is a statement about a derivative in a function space; a wrong sign or factor in one of five functions still yields plausible-looking plans", "anchors": ["include/ergodic_exploration/ergodic_control.hpp:rhodot", "include/ergodic_exploration/ergodic_control.hpp:gradErgodicMetric", "include/ergodic_exploration/ergodic_control.hpp:gradBarrier", "include/ergodic_exploration/ergodic_control.hpp:updateControl", "include/ergodic_exploration/models/omni.hpp:fdx", "include/ergodic_exploration/models/omni.hpp:fdu"]}
{"id": "C96", "title": "With rounding, the ergodic controller's commands stay finite and within the limits", "statement": "In rounded arithmetic, with finite parameters, poses and maps of positive size and a target that some grid point sees without underflow, every call of control of an object with a history of such calls returns a twist of finite numbers within the velocity limits, and so are all stored controls and the predicted trajectory; on maps with at most 2^14 target cells per side the call does return, for the cart too. When instead every Gaussian underflows on the grid of a map of new size, every commanded component is NaN.", "quantifier": "all machines (roundings and mathematical libraries with a positive power function), parameters, histories of calls, draws, maps, poses and targets of finite numbers", "why_tests_cant": "finiteness through the whole pipeline (normalisation, transforms, forward and backward passes, clamping) for every rounding; one NaN anywhere passes through std::clamp silently", "anchors": ["include/ergodic_exploration/ergodic_control.hpp:control", "include/ergodic_exploration/ergodic_control.hpp:configTarget", "include/ergodic_exploration/ergodic_control.hpp:updateControl", "src/ergodic_exploration/target.cpp:fill", "src/ergodic_exploration/buffer.cpp:Basis"]}
{"id": "C97", "title": "A twist that is not finite stops the node before it is published", "statement": "In rounded arithmetic, validating a twist or simulating a candidate twist with a NaN or infinite component (or from such a pose) is undefined behaviour at the first simulated step, for every map and detector. Odometry with a NaN or +infinite component therefore makes every search of the dynamic window undefined. When the map has a new size and every Gaussian of the target is zero on its grid, the iteration in which the controller plans is undefined behaviour for the omnidirectional robot and throws invalid_argument for the cart.", "quantifier": "all machines, maps, detectors, poses, twists, references, node states", "why_tests_cant": "NaN and infinity propagate through every operation of the simulation; no test distinguishes undefined behaviour from the value the compiler happens to produce", "anchors": ["include/ergodic_exploration/numerics.hpp:validate_control", "include/ergodic_exploration/numerics.hpp:integrate_twist", "src/ergodic_exploration/grid.cpp:world2Grid", "src/ergodic_exploration/dynamic_window.cpp:window", "include/ergodic_exploration/exploration.hpp:control"]}
{"id": "C98", "title": "The simulated motion with rounding stays close to the exact motion", "statement": "In rounded arithmetic, with a sine and a cosine right to the last bit, one step of integrate_twist ends within V*(gap + 2^-43) + B/2^52 of the exact motion of the body under the same twist, where V bounds the increments, B the coordinates and gap = min(2^-47/|w dt|, 4|w dt|) is at most 2^-22. After k steps the pose is within k steps' errors plus the drift of the heading of the exact motion over k*dt, and no farther from the start than the speed allows plus k steps' errors.", "quantifier": "all machines with accurate sine and cosine, poses, twists, time steps from 1/1000 to 64 s, numbers of steps up to 2^40", "why_tests_cant": "the division by w*dt magnifies rounding errors for slow rotations; a continuum of twists and poses; errors accumulate over the horizon", "anchors": ["include/ergodic_exploration/numerics.hpp:integrate_twist", "include/ergodic_exploration/numerics.hpp:validate_control", "src/ergodic_exploration/dynamic_window.cpp:objective"]}
{"id": "C99", "title": "The node keeps running with rounding", "statement": "In rounded arithmetic, with finite sane parameters, odometry from which the limits can be reached, maps the detector can work with and the target in sight, a robot that at every iteration has room for the longer look-ahead (its length at the largest speed, a two millionth of it and a rounding error per step) never makes the node throw or run into undefined behaviour; every twist it publishes is finite and no faster than the limits allow.", "quantifier": "all machines with accurate sine and cosine and a positive power, parameters, event histories, random draws", "why_tests_cant": "every history; needs the rounding errors of the simulated poses, of the samples, of the step counts and of the controller together", "anchors": ["include/ergodic_exploration/exploration.hpp:control", "include/ergodic_exploration/numerics.hpp:validate_control", "src/ergodic_exploration/dynamic_window.cpp:control", "src/ergodic_exploration/collision.cpp:collisionCheck"]}
{"id": "C100", "title": "The coefficients nobody has set are never felt", "statement": "The constructor of the ergodic controller leaves the Fourier coefficients of the target unset. In rounded arithmetic, whatever they hold, every sequence of calls of the public member functions shows its callers the same twists, trajectories, paths and failures.", "quantifier": "all machines, parameters, contents of the unset coefficients, sequences of calls", "why_tests_cant": "the contents of uninitialised memory cannot be enumerated; they are read when the first map has no extent", "anchors": ["include/ergodic_exploration/ergodic_control.hpp:ErgodicControl", "include/ergodic_exploration/ergodic_control.hpp:configTarget", "include/ergodic_exploration/ergodic_control.hpp:gradErgodicMetric", "src/ergodic_exploration/basis.cpp:gradFourierBasis"]}
{"id": "C101", "title": "A map without extent stops the node", "statement": "In rounded arithmetic, when a map without extent along an axis arrives (no cells, or cells of side zero), the controller commands NaN; the next planning iteration of the omnidirectional node has undefined behaviour and that of the cart throws an exception nothing catches.", "quantifier": "all machines, parameters, maps without extent, states of the node, poses, draws", "why_tests_cant": "needs NaN to be followed through the basis, the co-state, the clamp and the conversion to an index; tests use maps with cells", "anchors": ["include/ergodic_exploration/exploration.hpp:control", "include/ergodic_exploration/ergodic_control.hpp:configTarget", "src/ergodic_exploration/basis.cpp:gradFourierBasis", "src/ergodic_exploration/grid.cpp:world2Grid"]}
{"id": "C102", "title": "Readings outside the limits of a scan have no influence", "statement": "In arithmetic with special values, two scans that agree on every reading between range_min and range_max and differ only in readings that are not give the same map, or fail alike.", "quantifier": "all sensor mountings, maps, poses, scans with finite limits, replacements of readings outside the limits", "why_tests_cant": "drivers report a missing return as infinity, zero, a large number or NaN, at any position of the scan", "anchors": ["src/ergodic_exploration/mapping.cpp:updateMap", "src/ergodic_exploration/grid.cpp:world2Grid"]}
{"id": "C103", "title": "Callbacks that run during an iteration leave it one that could have happened without them", "statement": "Every iteration of the control loop during which callbacks run (before the flag test, before planning, before the validation, before the search) publishes what the loop publishes when the same callbacks run between two iterations, some before and the others after it.  Whatever the callbacks, it publishes one twist exactly when a map and a pose are known, the twist is checked against a map no older than the check, and the velocity limits hold.", "quantifier": "all concurrent executions, all messages at every place of every iteration", "why_tests_cant": "the race depends on when a message arrives within a few milliseconds; tests deliver messages between iterations", "anchors": ["include/ergodic_exploration/exploration.hpp:control", "include/ergodic_exploration/exploration.hpp:mapCallback", "include/ergodic_exploration/exploration.hpp:odomCallback", "src/exploration_omni_node.cpp:main"]}
{"id": "C104", "title": "The embedded integrator follows systems with a known solution", "statement": "For a constant derivative d every sample RungeKutta45::solve accepts at time t is x0 + t d, whatever the tolerance and the step bounds, and so are the columns of the trajectory it hands back; for an affine system one step is the degree-4 Taylor polynomial of the solution up to h^5. The same holds backward in time for the co-states.", "quantifier": "all derivatives, affine systems, tolerances, step bounds, horizons, control lists", "why_tests_cant": "a test compares with a tolerance of a per cent; the excess is four ten-thousandths and does not shrink with the step or the tolerance", "anchors": ["include/ergodic_exploration/integrator.hpp:RungeKutta45::step", "include/ergodic_exploration/integrator.hpp:RungeKutta45::solve"]}
{"id": "C105", "title": "The shipped configurations start, keep running and stay slow", "statement": "With config/explore_omni.yaml and config/explore_cart.yaml both nodes start, and with rounded arithmetic every history runs to its end without throwing or undefined behaviour, publishing only finite twists of at most 1.4143 m/s (cart: 1.0001 m/s) and 2.001 rad/s, provided the maps are at most 25 m from a target, the robot is 2.83 m (cart: 2.01 m) within the lower edges of the map and the measured velocity is at most 0.4 m/s and 0.1 rad/s beyond the limits. With a first map 72 m to the right of or above the targets the first iteration of the omnidirectional node has undefined behaviour and that of the cart throws. In exact arithmetic a robot that carries out its twists for the period of the files is free of obstacles at every iteration.", "quantifier": "all machines, histories, maps, poses, measured twists and random draws within these bounds", "why_tests_cant": "the numbers of the two files interact through thirty-odd parameters, rounding and the horizon lengths; a test drives one history in one map", "anchors": ["config/explore_omni.yaml", "config/explore_cart.yaml", "src/exploration_omni_node.cpp:main", "src/exploration_cart_node.cpp:main"]}
{"id": "C106", "title": "The step-size control of the embedded integrator", "statement": "When the estimated error of a step grows with the fourth power of its length, the next length chosen by RungeKutta45 is the one between hmin and hmax whose estimate comes closest to 0.84^4 times the tolerance; a rejected step is followed by one at most 0.84 times as long or by the shortest, and a step is followed by a shorter one exactly when its estimate exceeds 0.84^4 times the tolerance. When from every state of an invariant set all steps up to some length of at least hmin are accurate enough, and the iterations suffice for the rejections that bring hmax below that length on each of the at most horizon/hmin steps, the forward and the backward integration succeed. With IEEE special values a zero estimate is followed by the longest step and a NaN estimate by NaN; limits in the order of the declaration are undefined behaviour.", "quantifier": "all tolerances, limits, lengths, estimates, systems, horizons and iteration limits with these properties", "why_tests_cant": "the interplay of rejections, growth and the iteration limit depends on the system and on the number of rejections; a test integrates one system", "anchors": ["include/ergodic_exploration/integrator.hpp:solve", "include/ergodic_exploration/integrator.hpp:RungeKutta45"]}
{"id": "C107", "title": "What the ergodic metric can and cannot see", "statement": "With two or more basis functions per axis two positions have the same basis values exactly when one is carried to the other by reflections in the edges of the map; inside the map positions are told apart. Hence for every trajectory, however far outside the map, there is one inside with the same coefficients and the same metric for every target. The gradient of the metric at a position outside is the one at its image with the components reversed along axes reflected an odd number of times, and on an edge it has no component across the edge. Over the map the basis functions are orthogonal with mean squares 1, 1/2 and 1/4. A basis of one function per axis tells no positions apart.", "quantifier": "all map sizes, basis sizes, positions, trajectories, targets and coefficients", "why_tests_cant": "identity of basis values for whole classes of positions and integrals over the map are not reachable by sampling", "anchors": ["src/ergodic_exploration/basis.cpp:fourierBasis", "src/ergodic_exploration/basis.cpp:trajCoeff", "include/ergodic_exploration/ergodic_control.hpp:gradErgodicMetric"]}
{"id": "C108", "title": "Overflow does not reach the actuators", "statement": "In every arithmetic in which results computed from infinities and NaN stay infinite or NaN, in particular in rounded arithmetic whose results overflow at 2^1024, and in every history: a published twist has finite components, provided the validation and the dynamic window simulate at least one step, as they do with both shipped configurations; unless it is zero, the pose it was planned from is finite; it is zero, does not compare as outside the limits, or is a sample of a dynamic window. A twist whose increment overflows has no validation result. With ordinary numbers (at most 2^57, cells of at least 2^-60) validation and collision check have the same outcome with overflow and without.", "quantifier": "all arithmetics with special values, machines, parameters, maps, messages and histories", "why_tests_cant": "overflow occurs for inputs no test suite contains, and the claim is about all histories", "anchors": ["include/ergodic_exploration/numerics.hpp:validate_control", "include/ergodic_exploration/numerics.hpp:integrate_twist", "src/ergodic_exploration/collision.cpp:collisionCheck", "include/ergodic_exploration/exploration.hpp:control"]}
{"id": "C109", "title": "Storage of the embedded integrator", "statement": "For every horizon, RungeKutta45::solve (forward and backward) either throws because its matrix has no further column, or does exactly what it would do with any larger matrix; nothing is written outside and no different result is returned. With one column more than the code allocates it never throws: it gives up at max_iter, or returns strictly monotonic times from one end to the other (within the comparison tolerance, never past it) in at most floor(horizon/hmin)+2 columns, or, forwards, when the first step passes the horizon, the two ends of that step. When the horizon is a multiple of the smallest step the allocated columns are always enough. For every other horizon the exception is thrown with hmin = hmax for a body (or co-state) at rest.", "quantifier": "all arithmetics (first part); all models, controls, horizons, step sizes, tolerances and iteration limits", "why_tests_cant": "the number of accepted steps depends on the dynamics and on every rounding of the step size; no finite set of horizons covers it", "anchors": ["include/ergodic_exploration/integrator.hpp:solve"]}
{"id": "C110", "title": "The origin of the map frame does not matter", "statement": "Start either executable with every mean of the target displaced by a vector d, and feed it a history in which the origins of the maps and the translations of the transforms are displaced by d and everything else is the same. Then it ends in the same way (same failure, if any) and publishes the same messages in the same order: the twists are equal, one by one, and markers, planned paths and paths of the dynamic window are displaced by d. The collision queries, the validation, both searches of the dynamic window and the ergodic controller are each unaffected.", "quantifier": "all displacements, parameters, histories (maps, odometry, transforms, random draws); exact arithmetic", "why_tests_cant": "a relation between two runs, for every displacement and every history; a mix-up of map and world coordinates shows only for some origins", "anchors": ["include/ergodic_exploration/exploration.hpp:control", "include/ergodic_exploration/ergodic_control.hpp:control", "include/ergodic_exploration/ergodic_control.hpp:configTarget", "include/ergodic_exploration/target.hpp:operator()", "src/ergodic_exploration/grid.cpp:world2Grid", "src/ergodic_exploration/dynamic_window.cpp:control"]}
{"id": "C111", "title": "Of a cell only matters whether it is occupied", "statement": "If two histories differ only in that cells of the maps have other values, each below the occupied threshold in both or in neither, then either executable ends in the same way and publishes exactly the same messages. In particular, if an empty cell is below the threshold and a full one is not, every map may be reduced to empty and full cells; in exact arithmetic that is so for thresholds above zero and at most one, and unknown cells then count as empty. The ergodic controller does not look at cells at all, only at the extent of the map.", "quantifier": "all arithmetics (IEEE doubles included), parameters, histories and thresholds", "why_tests_cant": "a relation between two runs over all maps and histories; a comparison at another place or in another unit shows only for particular values", "anchors": ["src/ergodic_exploration/collision.cpp:checkCell", "src/ergodic_exploration/grid.cpp:getCell", "include/ergodic_exploration/exploration.hpp:control", "include/ergodic_exploration/ergodic_control.hpp:configTarget"]}
{"id": "C112", "title": "Far-away obstacles do not matter", "statement": "A collision query inspects only cells on the digital circles from the boundary to the search radius around the robot cell; in exact arithmetic their centres are within the search radius and one and a half cells of the pose, along either axis. Hence if two histories differ only in maps, and at every iteration the current maps have the same geometry and are occupied alike within v\u00b7max(horizons) + search radius + 1.5 cells of the robot, v bounding the speed of the twists within the limits, then a run of either executable on the one is a run on the other that publishes exactly the same messages, as long as the robot has that room to the lower edges of its map.", "quantifier": "queries: all arithmetics, maps, poses and detectors; executables: exact arithmetic, all sane parameters, odometry within recoverable limits and histories", "why_tests_cant": "a relation between two runs over all maps and histories; a query that looks farther shows only when something happens to be there", "anchors": ["src/ergodic_exploration/collision.cpp:search", "src/ergodic_exploration/collision.cpp:bresenhamCircle", "src/ergodic_exploration/dynamic_window.cpp:objective", "include/ergodic_exploration/exploration.hpp:control"]}
{"id": "C113", "title": "Neither the order of the targets nor listing all of them several times matters", "statement": "In exact arithmetic, if the densities of two targets are proportional, the controller gets the same distribution on every grid. Hence either executable, started with its list of targets in another order or with the whole list repeated any number of times, ends in the same way and publishes the same trajectories, paths and twists; only the markers that draw the target differ. Proportional densities are the only ones with the same distribution on every grid, and listing only one of two targets with different means a second time changes it.", "quantifier": "all parameters, permutations and repetitions of the list of targets, and histories; exact arithmetic", "why_tests_cant": "a relation between two runs over all lists and histories", "anchors": ["src/ergodic_exploration/target.cpp:fill", "src/ergodic_exploration/target.cpp:evaluate", "include/ergodic_exploration/ergodic_control.hpp:configTarget", "include/ergodic_exploration/exploration.hpp:control"]}
{"id": "C114", "title": "Odometry that arrives while the velocity window is computed", "statement": "odomCallback stores the three components of the twist one by one on the thread of the callbacks, while DynamicWindow::window reads each of them twice. Whatever the order of the assignments and the reads, a search returns only twists that respect the acceleration limits with respect to the velocity stored before or to one of the messages.", "quantifier": "all interleavings of any number of messages with the six reads, in every iteration of every history", "why_tests_cant": "needs a thread switch inside a function a few nanoseconds long", "anchors": ["include/ergodic_exploration/exploration.hpp:odomCallback", "src/ergodic_exploration/dynamic_window.cpp:window", "src/ergodic_exploration/dynamic_window.cpp:control"]}
{"id": "C115", "title": "Closed-loop safety with callbacks at any moment", "statement": "On a map that does not change, a robot that starts free and carries out every published twist exactly for one loop period is collision free at every iteration, no matter at which places of an iteration the map is sent again and odometry arrives, including odometry stored component by component between the reads of the velocity window, and including a map being stored again while a collision check runs.", "quantifier": "all parameters with positive time steps, all histories, all interleavings of callbacks with iterations, all measured velocities", "why_tests_cant": "needs arbitrary thread schedules of arbitrary length combined with the motion of the robot", "anchors": ["include/ergodic_exploration/exploration.hpp:control", "include/ergodic_exploration/exploration.hpp:mapCallback", "include/ergodic_exploration/exploration.hpp:odomCallback", "src/ergodic_exploration/grid.cpp:update"]}
{"id": "C116", "title": "Closed-loop safety in rounded arithmetic with imperfect transforms and motion", "statement": "On a map that does not change, let every transform be right up to \u03b4, let the robot rest when told to and otherwise end each loop period within \u03b7 of where the published twist leads the pose the node believes in, and let callbacks run at any moment. Then, in rounded arithmetic, at every iteration the robot is within max(\u03b4, \u03b7 + what it covers in the mismatch between loop period and checked instant + the error of the simulation) of a pose at which the collision check is free. Nothing accumulates over time. For the shipped configurations the computation contributes less than a tenth of a micrometre.", "quantifier": "all rounding machines with accurate sine and cosine, all parameters with reasonable time steps, all histories of any length, all interleavings of callbacks with iterations, all errors \u03b4 and \u03b7", "why_tests_cant": "needs runs of unbounded length, arbitrary errors and schedules, and the rounding of every operation of the simulation", "anchors": ["include/ergodic_exploration/exploration.hpp:control", "include/ergodic_exploration/numerics.hpp:validate_control", "src/ergodic_exploration/dynamic_window.cpp:control", "include/ergodic_exploration/numerics.hpp:integrate_twist"]}
{"id": "C117", "title": "Obstacles cannot slip between the circles", "statement": "The collision check looks only along circles of cells, so a single check can miss an occupied cell that lies between two circles (C26). Yet an obstacle cannot get into the robot unseen: for a robot that starts with an obstacle outside the padded radius, moves at most one cell (in any of the eight directions) between consecutive checks and passes each of them, the obstacle stays outside the boundary radius for ever, provided the padding obstacle_threshold is at least three cells (or two cells, if the boundary radius is less than 22 cells, which covers the shipped radii on every map with cells of at most 10 cm). In the closed loop of the nodes, with twists that move the robot by no more than a cell per period, the boundary of the robot therefore never reaches such an obstacle (to within half a cell's diagonal). Two cells do not suffice in general: with a boundary radius of 22 cells the robot can drive diagonally onto the obstacle, passing every check on the way.", "quantifier": "All maps, detectors, numbers of checks and paths of touching cells; any arithmetic for the statement in cells, exact arithmetic for the one in metres.", "why_tests_cant": "Whether some path of robot cells slips through the gaps between rasterised circles is a question about all paths and all radii; tests drive a few straight lines at one radius and cannot exclude a crooked path through the gaps.", "anchors": ["src/ergodic_exploration/collision.cpp:search", "src/ergodic_exploration/collision.cpp:bresenhamCircle", "src/ergodic_exploration/collision.cpp:collisionCheck", "include/ergodic_exploration/numerics.hpp:validate_control", "include/ergodic_exploration/exploration.hpp:control"]}
{"id": "C118", "title": "What a scan shows is an obstacle and is avoided", "statement": "A cell in which a beam of a laser scan ends, and which was not thought to be free before (at least 50 %), is an obstacle for the shipped threshold of 80 % after updateMap has entered the scan; so a robot that maps and checks before each move cannot get such an obstacle inside its boundary.", "quantifier": "All maps of percentages, sensor placements, scans with any number of beams, poses, cells and sequences of scans and moves.", "why_tests_cant": "Whether a hit survives depends on all other beams of the scan in their order; the value of a cell after a scan is a fold over arbitrarily many rounded Bayes updates.", "anchors": ["src/ergodic_exploration/mapping.cpp:updateMap", "src/ergodic_exploration/mapping.cpp:rayTrace", "src/ergodic_exploration/mapping.cpp:updateCell", "src/ergodic_exploration/collision.cpp:search", "src/ergodic_exploration/collision.cpp:collisionCheck"]}
{"id": "C119", "title": "A robot too close to an obstacle gets away from it", "statement": "A robot that touches nothing, but is closer to an obstacle than its collision radius (for instance after the map changed), with a free place behind it and no obstacle on the way there, eventually moves. What holds: if some sampled twist has a collision-free rollout the iteration does not give up but publishes a validated or collision-free twist; and if the detector reports a collision one step away in every direction, every published twist is zero for as long as that lasts.", "quantifier": "all parameters, maps, poses, odometry and histories of any length; every arithmetic for the negative result, exact arithmetic for the positive one; for the shipped configurations rounded arithmetic", "why_tests_cant": "standing still for ever is a property of infinitely long runs, and the cause is that all of the samples of every search fail", "anchors": ["include/ergodic_exploration/exploration.hpp:control", "include/ergodic_exploration/numerics.hpp:validate_control", "src/ergodic_exploration/dynamic_window.cpp:control", "src/ergodic_exploration/dynamic_window.cpp:objective", "config/explore_cart.yaml", "config/explore_omni.yaml"]}
{"id": "C120", "title": "Beam angles in single precision", "statement": "The fields of a laser scan are float32, and updateMap accumulates the angle of the beams in single precision. This does not change the map. What holds: while the angles stay between -4 and 4 radians, the direction used for beam k is off by at most k * 2^-23 rad, and the outcome of the scan is exactly that without these roundings if every reading, the k-th of length r, ends farther than r * k * 2^-23 from the lines between cells.", "quantifier": "all roundings to nearest of binary32, all maps, sensor placements, poses and scans with any number of beams", "why_tests_cant": "the error depends on the number of beams and on the bits of the increment; a test scan with a round increment has no error at all", "anchors": ["src/ergodic_exploration/mapping.cpp:updateMap"]}
{"id": "C121", "title": "Only the latest messages matter, the measured velocity only through the dynamic window, and the random draws only once the memory has outgrown the batch", "statement": "Of the map and odometry messages only the last of each kind before an iteration of the control loop matters: two histories whose iterations see the same last map, the same last measured twist, the same transforms and the same random integers publish the same messages, however many messages came in between and in whichever order. So the length of the subscriber queues (one message each) makes no difference. Two histories that differ only in the measured twists publish the same messages until one iteration in which both publish a twist that is a grid point of the dynamic window around the twist last measured, or zero. Two histories that differ only in the random integers have the same run as long as no more poses have been stored than the batch size, or when the buffer is not larger than the batch.", "quantifier": "every state, every controller, map, configuration and history of events; every arithmetic (for the odometry, every arithmetic with a strict less-than)", "why_tests_cant": "A test compares two particular histories; the claim is that nothing else of the whole history can influence the messages, for histories of any length.", "anchors": ["include/ergodic_exploration/exploration.hpp:control", "include/ergodic_exploration/exploration.hpp:init", "include/ergodic_exploration/exploration.hpp:mapCallback", "include/ergodic_exploration/exploration.hpp:odomCallback", "src/ergodic_exploration/buffer.cpp:sampleMemory", "src/ergodic_exploration/grid.cpp:update"]}
{"id": "C122", "title": "A robot at rest in a free place always finds a twist to follow (standing still)", "statement": "When the planned twist is rejected and the robot stands at a place where the collision detector reports nothing, the dynamic window search of the shipped configurations finds a twist whose simulated trajectory is free, because standing still is among the sampled twists.", "quantifier": "every map, every free place with representable coordinates, every reference of ordinary size, in IEEE double precision; general sample counts and limits in exact arithmetic", "why_tests_cant": "A test tries particular places and sample counts; the claim is about every map and every free place, and it fails only for even numbers of samples, in places a test would hardly construct.", "anchors": ["src/ergodic_exploration/dynamic_window.cpp:control", "src/ergodic_exploration/dynamic_window.cpp:window", "src/ergodic_exploration/dynamic_window.cpp:objective", "config/explore_cart.yaml", "config/explore_omni.yaml"]}
{"id": "C123", "title": "Coefficients with rounding, whatever the order of summation", "statement": "With every operation rounded and the sums taken in any order and bracketing (Armadillo does not promise one), the basis functions, the trajectory coefficients, the normalised target and its spatial coefficients are finite and close to their exact values: a basis function is within (k1+k2)*c*2^-47 + 3*2^-52 of the cosine basis at a point at most c map sizes away, a trajectory coefficient of n samples adds at most (n+6)*2^-52, the normalised target values of n points sum to one within (n+1)*2^-50, and the gradient of the metric is the derivative of the combination of basis functions up to a similar allowance.", "quantifier": "every machine with an accurate cosine, every map size up to 2^100, every frequency up to 2^53, every trajectory of up to 2^50 samples, every target with a Gaussian in sight on up to 2^40 points, every order and bracketing of the additions", "why_tests_cant": "A test compares a few coefficients in the order of one build of Armadillo; the claim is about every order a build might use and about the growth of the error with the number of samples.", "anchors": ["src/ergodic_exploration/basis.cpp:fourierBasis", "src/ergodic_exploration/basis.cpp:trajCoeff", "src/ergodic_exploration/basis.cpp:spatialCoeff", "src/ergodic_exploration/basis.cpp:gradFourierBasis", "src/ergodic_exploration/target.cpp:fill", "include/ergodic_exploration/ergodic_control.hpp:gradErgodicMetric"]}
{"id": "C124", "title": "Closed-loop safety on maps that change", "statement": "On maps that change while the robot drives, a robot that carries out every published twist for one loop period is free, at every iteration, on the map known then, provided it is free when a map and a pose are first known, no later map shows a new obstacle within one period's reach of the robot, and the period is one of the checked instants. With rounding, callbacks at any moment, inexact transforms and an inexact robot, it is within the errors of one period of a pose that is free on the latest map. A map that grows by whole cells and whose newly occupied cells are farther than the reach, the search radius and half a cell shows no new obstacle near.", "quantifier": "all node parameters that start, event histories of any length with any number of maps, every period, every reach; exact arithmetic, and rounded arithmetic on every machine with accurate trigonometry; the two shipped configurations", "why_tests_cant": "A test drives finitely many runs against finitely many maps; the claim composes validation, window search, callbacks, motion and map updates over runs of any length, and says how near an obstacle may appear.", "anchors": ["include/ergodic_exploration/exploration.hpp:control", "include/ergodic_exploration/exploration.hpp:mapCallback", "include/ergodic_exploration/numerics.hpp:validate_control", "src/ergodic_exploration/dynamic_window.cpp:control", "src/ergodic_exploration/collision.cpp:collisionCheck", "src/ergodic_exploration/grid.cpp:update"]}
{"id": "C125", "title": "Obstacles that stay are never run into, however the maps change", "statement": "Maps may change in any way while the robot drives, also with new obstacles right where it stands. If one obstacle is occupied on every map in use from some iteration on, the robot is well inside those maps, moves less than a cell per period and rests whenever the published twist is zero, the padding is three cells or two cells at a boundary radius of at most 21 cells, and the obstacle is at that iteration farther than the padded radius and half a cell's diagonal, then the robot is, at that iteration and every later one, farther from the obstacle than the boundary radius less half a cell's diagonal; with rounding, callbacks at any moment, inexact transforms, an inexact robot and map origins off a common lattice, less their errors too.", "quantifier": "all node parameters that start, event histories of any length with any number of maps, every obstacle, every iteration from which it stays, every period; exact arithmetic, and rounded arithmetic on every machine with accurate trigonometry; the shipped configurations", "why_tests_cant": "A test drives finitely many runs against finitely many maps; the claim is an invariant of the relative cell of one obstacle that survives arbitrary changes of everything else.", "anchors": ["include/ergodic_exploration/exploration.hpp:control", "include/ergodic_exploration/exploration.hpp:mapCallback", "include/ergodic_exploration/numerics.hpp:validate_control", "src/ergodic_exploration/dynamic_window.cpp:control", "src/ergodic_exploration/collision.cpp:collisionCheck", "src/ergodic_exploration/collision.cpp:search", "src/ergodic_exploration/grid.cpp:update"]}
{"id": "C126", "title": "Start-up fails by exceptions only, up to four conversions", "statement": "From any parameter server, with lists too short, values of the wrong kind, missing values, radii and thresholds out of range or standard deviations of zero, either node starts or throws, unless buffer_size, num_basis or one of the two step counts is outside the range of the conversion: buffer_size in (-1, 2^32), num_basis from 0 to 46340, and |horizon / dt| < 2^32 for the controller and the window suffice in exact arithmetic. Outside these ranges start-up is undefined: always for buffer_size, and for num_basis from 46341 to 65535 whenever the values are read. Sampling the replay memory returns or throws, whatever is stored and drawn.", "quantifier": "all parameter servers, in any arithmetic (every Flt F, so also binary64); all buffers, draws and trajectories", "why_tests_cant": "Undefined behaviour may look fine in a test; that nothing else in start-up is undefined is a statement about every parameter server.", "anchors": ["src/exploration_cart_node.cpp:main", "src/exploration_omni_node.cpp:main", "src/ergodic_exploration/collision.cpp:Collision", "include/ergodic_exploration/ergodic_control.hpp:ErgodicControl", "src/ergodic_exploration/basis.cpp:Basis", "src/ergodic_exploration/buffer.cpp:sampleMemory"]}
{"id": "C127", "title": "The control update with rounding, whatever the association", "statement": "The product -Rinv * fdu^T * rho of updateControl, associated either way, with the sign inside or outside and every dot product added in any order, in rounded arithmetic: with finite entries the result is finite and off the exact product by at most nine units of 2^-51 of the sum of the absolute values of all products of three (plus a multiple of 2^-1075); the clamped control lies within the limits and, for both nodes after any history, within 21 * 2^-51 * |rho|_1 / w (plus a multiple of 2^-1075) of the unique minimiser of the exact Hamiltonian. With the shipped configuration of the omni-directional robot and co-states up to 1000 that is below 10^-10. In exact arithmetic all associations give the model's result; in binary64 they differ.", "quantifier": "all matrices, co-states, poses, positive weights, limits, histories, associations and orders of addition; every rounding with the properties of Machine and trigonometric functions accurate to 2^-52", "why_tests_cant": "Which association and order Armadillo and BLAS choose depends on sizes, version and processor; a test sees one of them.", "anchors": ["include/ergodic_exploration/ergodic_control.hpp:updateControl", "include/ergodic_exploration/models/omni.hpp:fdu", "include/ergodic_exploration/models/cart.hpp:fdu"]}
{"id": "C128", "title": "What a scan makes of the map, and which obstacles are seen and avoided, with rounding", "statement": "In rounded arithmetic updateMap applies to every cell the beams of the scan in order, each as Bayes' rule with the sensor's probability, rounded down to a percentage that is at most one too low, and nothing else; certain cells stay. A cell that was not thought to be free before (at least 50 %) and in which a beam ends is then an obstacle for the shipped detector, after any number of such scans, and a robot that maps and checks before each move never gets it inside its boundary.", "quantifier": "all maps of percentages, sensor placements, scans with any number of beams, poses, cells and sequences of scans and moves; every rounding with the properties of Machine whose log and exp are right to forty bits", "why_tests_cant": "The value of a cell after a scan is a fold of arbitrarily many updates through log and exp, each truncated; whether truncation can push an obstacle below the threshold depends on the last bits of the library.", "anchors": ["src/ergodic_exploration/mapping.cpp:updateMap", "src/ergodic_exploration/mapping.cpp:updateCell", "src/ergodic_exploration/mapping.cpp:rayTrace", "src/ergodic_exploration/collision.cpp:collisionCheck"]}
{"id": "C129", "title": "What can go wrong while a node runs, besides an exception", "statement": "In every arithmetic, whatever maps, odometry, transforms and random integers it is sent, a node that has started with limits the right way round and a number of validation steps that is an unsigned int returns, throws, or reaches one of three kinds of conversion of a double that does not fit its integer type: the number of samples of a side of a map of a new size; the cell or a radius of a collision query at a pose the planned twist or a sampled twist leads to without an earlier collision; the column of the reference looked up by the window search. The callbacks never fail, no loop runs forever, nothing else is undefined, and these conversions do make the iteration undefined. The omni-directional node returns, without an exception, unless some iteration meets a map whose data do not match its size, a conversion that does not fit, a target grid too large to count, a random integer that is no position in the memory, or a missing column of the reference. So does the cart, unless besides it plans a lateral velocity, which in doubles can only be NaN.", "quantifier": "every arithmetic (doubles with infinities and NaN included), all parameters, both robots, all message contents (also maps with too few or too many cells) and all lengths of history", "why_tests_cant": "The absence of any other undefined outcome is a statement about every value of every double the node computes, over unbounded histories; a test sees one execution, and undefined behaviour need not show in it.", "anchors": ["include/ergodic_exploration/exploration.hpp:control", "include/ergodic_exploration/ergodic_control.hpp:control", "include/ergodic_exploration/ergodic_control.hpp:configTarget", "src/ergodic_exploration/dynamic_window.cpp:control", "src/ergodic_exploration/collision.cpp:collisionCheck", "include/ergodic_exploration/numerics.hpp:validate_control"]}
{"id": "C130", "title": "What can go wrong in mapping, besides an exception", "statement": "In every arithmetic, on every map and for any sequence of scans and poses, the occupancy mapper returns, throws, or reaches one of three conversions of a double that does not fit its integer type: the cell of a pose, the cell of the end of a beam with a valid range, or the new value of a cell. All three depend on the first map, the scans and the poses alone. On a well-formed map none of whose conversions fails, every scan is taken in without an exception. The conversions are really made: a pose without a cell makes the update undefined, an update that takes in a scan has found cells for all ends, and a value that does not fit makes the update of its cell undefined. With exact values the conversions of values fit exactly if the map consists of percentages, and with rounding by any machine percentages suffice.", "quantifier": "every arithmetic (doubles with infinities and NaN included), all mappers, all maps (also with too few or too many cells), all scans, poses and lengths of history", "why_tests_cant": "That no other undefined outcome and no endless loop exists is a statement about every double in every scan and every value a cell can come to have; a test sees one scan, and undefined behaviour need not show in it.", "anchors": ["src/ergodic_exploration/mapping.cpp:updateMap", "src/ergodic_exploration/mapping.cpp:updateCell", "src/ergodic_exploration/mapping.cpp:rayTrace", "src/ergodic_exploration/mapping.cpp:lineDiag", "src/ergodic_exploration/grid.cpp:world2Grid"]}
{"id": "C131", "title": "The work of an iteration is bounded, whatever the map holds and however long the mission", "statement": "Counting cells examined, evaluations of the robot's model and of the co-state's derivative, evaluations of basis functions and of Gaussians, and cell updates, in every arithmetic and on every outcome: a collision query looking R cells far examines at most 4R(R+1) cells, and half of that outside the boundary radius unless it finds a collision; a search for a twist makes at most as many queries as samples times steps; a plan on a map of known size costs four evaluations of the model and of the co-state per column and one of every basis function per remembered or planned state, the remembered ones up to the size of a batch, and exactly that when it comes about; an iteration costs at most a price fixed by the node's parameters and its map, an iteration that publishes a plan or the path of another twist at least the corresponding part, and a history at most the number of its iterations times this price, however much has been remembered. When every map has the same size the target is sampled at most once in the whole history. A plan on a map of another size costs exactly the sampling of the target more. A twist found valid has been checked at every step, and a search for a twist that returns has tried every sample. Taking in a scan updates at most as many cells as valid returns times the longer side of the map, and exactly the cells along the beams that end on the map when it is taken in. Counting does not change any outcome.", "quantifier": "every arithmetic (doubles with infinities and NaN included), all prices, all controllers, maps, poses, memories, random draws and histories of events of any length; for scans all maps with sides from 1 to 2^31 cells", "why_tests_cant": "A bound on the work of the control loop must hold for every map and after any length of mission; a test times one run, and memory that grows or an unbounded search shows only after hours.", "anchors": ["src/ergodic_exploration/collision.cpp:bresenhamCircle", "src/ergodic_exploration/collision.cpp:search", "src/ergodic_exploration/dynamic_window.cpp:control", "include/ergodic_exploration/integrator.hpp:solve", "include/ergodic_exploration/ergodic_control.hpp:control", "include/ergodic_exploration/ergodic_control.hpp:configTarget", "src/ergodic_exploration/buffer.cpp:sampleMemory", "include/ergodic_exploration/exploration.hpp:control", "src/ergodic_exploration/mapping.cpp:rayTrace"]}
{"id": "C132", "title": "The controller in the mirror", "statement": "Flip the first axis of the plane, the second, or both: given the mirrored map, target, memory and pose and the same random draws, the ergodic controller ends alike and returns the mirrored twist (forward unchanged; sideways and turning reversed when one axis is flipped), with the mirrored control signal, co-state and coefficients, for the omnidirectional model and the cart, provided limits and weights have no side and the map's extent is a multiple of the target grid along flipped axes. The collision check gives the same verdict and the same distance in the mirror, validation accepts the same twists, and a node fed a mirrored history publishes the mirrored twists one by one as long as every twist passes validation. When validation fails, the samples of the velocity window are mirrored if both ends of the lateral and rotational ranges are sampled, the search returns the mirrored twist if one sample is the cheapest, and whole histories with such takeovers are mirrored too. A ray between mirrored cells marks the mirrored cells. False are: the samples of a window with one sample per range (always the lower end), the search with equally cheap samples (the first wins in both worlds), the coefficients of a target whose grid does not fit the map, the verdict at poses on an edge between two cells (the robot counts to the right-hand cell in the mirror too), the direction of the nearest obstacle when two are equally near, and rays that pass half-way between two cells: the mirror image of a ray along its longer axis has the mirrored cells exactly when it does not.", "quantifier": "exact arithmetic; all reflections with any displacement, all controllers in mirrored states, maps, poses, memories, random draws and histories of events of any length; rays between any two cells", "why_tests_cant": "A bias to one side shows only by comparing a run with its mirror image, for every map, target and pose; a test compares one pair, and misses ties and edges.", "anchors": ["include/ergodic_exploration/ergodic_control.hpp:control", "include/ergodic_exploration/ergodic_control.hpp:configTarget", "include/ergodic_exploration/ergodic_control.hpp:gradErgodicMetric", "include/ergodic_exploration/ergodic_control.hpp:gradBarrier", "include/ergodic_exploration/numerics.hpp:validate_control", "include/ergodic_exploration/numerics.hpp:integrate_twist", "include/ergodic_exploration/exploration.hpp:control", "src/ergodic_exploration/basis.cpp:fourierBasis", "src/ergodic_exploration/basis.cpp:gradFourierBasis", "src/ergodic_exploration/collision.cpp:collisionCheck", "src/ergodic_exploration/collision.cpp:minDirection", "src/ergodic_exploration/mapping.cpp:rayTrace", "src/ergodic_exploration/dynamic_window.cpp:control", "src/ergodic_exploration/dynamic_window.cpp:objective"]}
{"id": "C133", "title": "The two axes of the plane are treated alike", "statement": "Exchange the two axes of the plane: given the map with rows and columns exchanged, the exchanged target, memory and pose and the same random draws, the ergodic controller ends alike and returns the exchanged twist (forward unchanged, sideways and turning reversed), with the exchanged co-state and coefficients, whatever the shape of the map and of the target grid. At every pose in the map the collision check and the distance query give the same answer, the nearest obstacle is exchanged up to equal distances, validation accepts the same twists, a ray between exchanged cells lists the exchanged cells in the same order, a sequence of scans taken the other way round by a sensor mounted on the other side turns the exchanged map into the exchanged result, the window search returns the exchanged twist if both ends of the lateral and rotational ranges are sampled and one sample is the cheapest, and a node fed an exchanged history, takeovers included, publishes the exchanged twists one by one. No row is ever taken for a column. Together with C132: with map, target and poses turned by a quarter and displaced, a fresh controller plans the same twists one by one, and away from edges between rows the collision check and the distance query give the same answer and the same twists pass validation.", "quantifier": "exact arithmetic (rays: any arithmetic); all controllers in exchanged states, maps of any shape, poses, memories, random draws and histories of events of any length; rays between any two cells", "why_tests_cant": "Confusing rows with columns or lx with ly goes unnoticed on square maps with symmetric targets, which tests favour; the theorem compares every map with its transpose.", "anchors": ["include/ergodic_exploration/ergodic_control.hpp:control", "include/ergodic_exploration/ergodic_control.hpp:configTarget", "include/ergodic_exploration/ergodic_control.hpp:gradErgodicMetric", "include/ergodic_exploration/ergodic_control.hpp:gradBarrier", "include/ergodic_exploration/numerics.hpp:validate_control", "include/ergodic_exploration/numerics.hpp:integrate_twist", "include/ergodic_exploration/exploration.hpp:control", "src/ergodic_exploration/basis.cpp:fourierBasis", "src/ergodic_exploration/basis.cpp:gradFourierBasis", "src/ergodic_exploration/collision.cpp:collisionCheck", "src/ergodic_exploration/collision.cpp:minDirection", "src/ergodic_exploration/mapping.cpp:rayTrace", "src/ergodic_exploration/dynamic_window.cpp:control", "src/ergodic_exploration/dynamic_window.cpp:objective", "src/ergodic_exploration/mapping.cpp:updateMap"]}
{"id": "C134", "title": "What depends on the unit of length", "statement": "Measure every length in another unit (map, resolution, poses, velocities, radii, ranges and mounting of the sensor, target, target grid), leaving angles and times: positions lie in the same cells, the collision check gives the same verdict, distance and displacement to the nearest obstacle are the same in the new unit, validation accepts the same twists, a scan changes the same cells in the same way, trajectories have the same coefficients, the gradient of the basis is measured in the inverse unit, and the coefficients of a target computed for a map of new extent are the same. The behaviour as a whole depends on the unit: false is that the barrier at the edges of the map begins at the same places (it is 0.05 wide in whatever unit), and the cost by which the dynamic window compares twists adds squared lengths to squared angles, so that which of two collision-free twists it prefers depends on the unit.", "quantifier": "exact arithmetic; all units l > 0, maps, collision settings, poses, twists, horizons, mappers, scans, bases, trajectories and targets; any surroundings for the preference", "why_tests_cant": "Whether a constant is a length in disguise shows only when every input is scaled together; a test runs in one unit.", "anchors": ["src/ergodic_exploration/grid.cpp:world2Grid", "src/ergodic_exploration/grid.cpp:grid2World", "src/ergodic_exploration/collision.cpp:minDistance", "src/ergodic_exploration/collision.cpp:minDirection", "src/ergodic_exploration/collision.cpp:collisionCheck", "include/ergodic_exploration/numerics.hpp:validate_control", "include/ergodic_exploration/numerics.hpp:integrate_twist", "src/ergodic_exploration/mapping.cpp:updateMap", "src/ergodic_exploration/basis.cpp:trajCoeff", "src/ergodic_exploration/basis.cpp:spatialCoeff", "src/ergodic_exploration/basis.cpp:gradFourierBasis", "src/ergodic_exploration/target.cpp:fill", "include/ergodic_exploration/ergodic_control.hpp:configTarget", "include/ergodic_exploration/ergodic_control.hpp:gradBarrier", "src/ergodic_exploration/dynamic_window.cpp:objective"]}
{"id": "C135", "title": "The unit of time", "statement": "Give every duration, velocity, acceleration and control weight in another unit of time: construction, planning, validation, both window searches, one iteration of the control loop and whole runs are the same, with twists in the new unit: the node publishes the same paths and markers and the same twists, and fails in the same way. This holds as long as the unit does not decide whether a simulated twist turns (the tolerance 1e-12 on the rate of turn) and as long as the costs are not near the largest number. False is that simulated motion never depends on the unit: half a radian in 1e12 seconds is simulated as a straight line, half a radian in 1e3 gigaseconds as a turn.", "quantifier": "exact arithmetic; all units s > 0, nodes with either model, maps, poses, targets, random draws and histories", "why_tests_cant": "A duration missing from a formula, or a step count mistaken for a duration, shows only when all settings are rescaled together; a test runs in seconds.", "anchors": ["include/ergodic_exploration/ergodic_control.hpp:control", "include/ergodic_exploration/ergodic_control.hpp:rhodot", "include/ergodic_exploration/ergodic_control.hpp:updateControl", "include/ergodic_exploration/ergodic_control.hpp:optTraj", "include/ergodic_exploration/ergodic_control.hpp:path", "include/ergodic_exploration/integrator.hpp:solve", "include/ergodic_exploration/integrator.hpp:step", "include/ergodic_exploration/numerics.hpp:integrate_twist", "include/ergodic_exploration/numerics.hpp:validate_control", "include/ergodic_exploration/numerics.hpp:constTwistPath", "src/ergodic_exploration/dynamic_window.cpp:window", "src/ergodic_exploration/dynamic_window.cpp:objective", "src/ergodic_exploration/dynamic_window.cpp:control", "include/ergodic_exploration/exploration.hpp:control"]}
{"id": "C136", "title": "More cautious settings", "statement": "A detector that begins its search no farther from the robot, reports collisions and searches at least as far and takes at least the same cells for occupied reports every collision the other reports; a control accepted with the more cautious detector, or over more steps, is accepted with the other, or over fewer; and when the search of the dynamic window succeeds with more cautious settings over a longer horizon, it succeeds with the others, with a twist at least as close to the reference. The same holds when the more cautious side also has obstacles added to its map, and for the search along a reference trajectory, compared over the shorter horizon. False is that a larger boundary radius alone is more cautious: the search begins farther out, and a wall next to the robot is no longer seen.", "quantifier": "exact arithmetic, poses in the map rectangle; all maps, pairs of detectors and windows so ordered, twists, horizons; the horizon in every arithmetic", "why_tests_cant": "Monotonicity compares two configurations on every map and every pose; a test tries one configuration.", "anchors": ["src/ergodic_exploration/collision.cpp:collisionCheck", "src/ergodic_exploration/collision.cpp:search", "include/ergodic_exploration/numerics.hpp:validate_control", "src/ergodic_exploration/dynamic_window.cpp:control", "src/ergodic_exploration/dynamic_window.cpp:objective"]}
{"id": "C137", "title": "Unless it is needed, the safety layer has no influence", "statement": "As long as the planned twists pass the validation, two nodes (and two executables whose parameters differ only in the detector, the dynamic window and the validation) with the same target, transforms and random draws publish the same and fail in the same way, whatever their collision detectors, the cells of their maps (of the same extent), their dynamic windows, the settings of the validation and the measured velocities are. And if nothing disturbs a run with a cautious detector, a long validation and full maps, nothing disturbs it with a less cautious detector, a shorter validation and some obstacles removed, so that what is published is the same. On maps without obstacles nothing is ever disturbed.", "quantifier": "all nodes, histories and arithmetics for the first part; exact arithmetic and twists that do not lead out of the map for the second", "why_tests_cant": "That a layer has no side effect on the planner is a statement about pairs of runs that differ in everything the layer reads; a test has one configuration.", "anchors": ["include/ergodic_exploration/exploration.hpp:control", "include/ergodic_exploration/numerics.hpp:validate_control", "include/ergodic_exploration/ergodic_control.hpp:control", "include/ergodic_exploration/ergodic_control.hpp:configTarget", "src/ergodic_exploration/collision.cpp:collisionCheck"]}
{"id": "C138", "title": "Finer sampling of the velocity window", "statement": "When each interval between neighbouring samples of the velocity window is divided into equal parts, or a single sample becomes several, every twist sampled before is still sampled; so when the search of the dynamic window succeeds, it succeeds with the finer sampling, with a twist at least as close to the reference twist or following the reference trajectory at least as closely. False is that more samples suffice: with three samples the reference may be the middle one, with four it lies between two.", "quantifier": "exact arithmetic; all windows, refinements, maps, measured velocities and references for which the simulated poses stay in the map", "why_tests_cant": "Compares two configurations on every map, velocity and reference; a test tries single ones, and raising the sample counts looks harmless.", "anchors": ["src/ergodic_exploration/dynamic_window.cpp:window", "src/ergodic_exploration/dynamic_window.cpp:control", "src/ergodic_exploration/dynamic_window.cpp:objective"]}
