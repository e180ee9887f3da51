# Formal model of oplab_pipeline in Lean 4

## Method

The sources in `/repo/src` were read as text and modelled function by function as
total Lean functions (shallow embedding): Python loops become structural recursion or
folds, exceptions and `Console.quit` become values (`Except`, `Option`), mutable
module state and file systems become explicit state passed in and out.
Each definition carries a comment citing the file and lines it models and the
simplifications made.

Layout: `lean/Verif/Model/*` (model of the code), `lean/Verif/Spec/*` (small
specifications independent of the model's helpers), `lean/Verif/Lemmas/*`
(helper lemmas), `lean/Verif/Props/*` (the property theorems, with satisfiability
examples beside them).

When the code violates a property, the negation is proved with a concrete witness
(theorem name ending in `_false` / `_counterexample`), and the part that does hold
is proved as `..._partial`.

## Trusted base

* Lean's kernel and the axioms `propext`, `Classical.choice`, `Quot.sound` only (per theorem: last section).
* The reading of the Python code: nothing links model and code mechanically.
* Floating point is idealised: numbers are elements of an arbitrary linearly ordered
  field (or ℝ where sqrt, exp or trigonometry occur). Rounding, overflow,
  inf are not modelled; NaN is modelled as `none` where the code tests for it.
* External libraries (numpy, pandas, scipy, cv2, geographiclib, yaml, joblib) are
  parameters or replaced by their documented meaning, stated at each definition.

## Plan per property

* **C01 Body to inertial rotation is a rigid rotation** - ℝ with Mathlib sin/cos; spec = product of the three elementary rotations; trigonometric ring identities.
* **C02 inertial_to_body inverts body_to_inertial** - ℝ; expected false (matrix entry bug) → negation with witness attitude, partial theorem giving exactly when it holds.
* **C03 Scalar interpolation is exact, bounded and monotone** - any linearly ordered field; order/field reasoning.
* **C04 Heading interpolation takes the short way round** - any linearly ordered field; short-way distance spec; case analysis on the wrap.
* **C05 Camera pose interpolation brackets the query time** - list model with Python indexing; expected false at index 1 / yaw wrap → negation + partial.
* **C06 Sensor list interpolation keeps exactly the covered measurements** - index loop modelled literally (incl. Python negative index); invariant over the loop.
* **C07 DVL lever arm correction is the rigid-body velocity transfer** - cross product identities over a commutative ring.
* **C08 Angular speeds are defined for every usable orientation list** - index arithmetic with exceptions; expected false for length 2 → negation + partial.
* **C09 Dead reckoning integrates trapezoidally** - fold over the sequence, induction.
* **C10 Calendar time to epoch conversion is exact and monotone** - proleptic Gregorian day count over ℤ; monotonicity and inverse by omega/induction.
* **C11 Timezone names mean the same everywhere** - both string tables; expected false for CET → negation + partial listing exactly the disagreeing keys.
* **C12 File name timestamps decode what they encode** - character zip of pattern and name, decimal printing/parsing round trip.
* **C13 Interlaced navigation file is chronological** - stable sort by string key; permutation + sortedness in string order; chronological for equal-width keys; negation for differing widths.
* **C14 GAPS telegrams are paired correctly** - state machine over line kinds; invariant + counterexample traces.
* **C15 PHINS checksum rejects corrupted lines** - xor fold over characters + hex rendering injectivity.
* **C16 Every RDI ensemble is exported** - fold over log lines; expected false for last ensemble → exact characterisation.
* **C17 Stereo images are paired with their nearest neighbour within tolerance** - nearest-neighbour search; spec by quantifiers.
* **C18 Parsing a dive does not depend on dives parsed before** - hidden module state made explicit; expected false → negation, partial for first dive in a process.
* **C19 Tide correction covers the tide record** - loop with index j; expected false in last interval → exact characterisation.
* **C20 Merging dives keeps every measurement** - list recursion over dives.
* **C21 A dive is skipped by parse only if it was parsed before** - predicate on folder state; expected false → negation + exact characterisation.
* **C22 Clock correction never places a frame after its reception** - minimum residual; regression result is a parameter.
* **C23 ALR and Autosub logs yield strictly increasing times** - fold; induction.
* **C24 Degree-minute positions decode with the right sign** - ordered field; negation for S/W in the dump parser, proof for GAPS.
* **C25 ACFR pose files round trip** - line-indexed file model; expected false → negation, partial for origin/positions.
* **C26 Combined RAW writer emits complete DVL records** - state machine over measurements; induction.
* **C27 Sensor JSON records round trip** - JSON values as a tree; per class round trip; Tide negated.
* **C28 USBL filter keeps only consistent fixes** - list recursion with index window; exact characterisation.
* **C29 EKF covariance stays a covariance** - Mathlib matrices, PosSemidef; induction over executions.
* **C30 EKF Jacobian is the derivative of the motion model** - HasDerivAt for each entry.
* **C31 EKF angles are wrapped** - while loops with fuel-free well-founded recursion or floor arithmetic; range and congruence.
* **C32 EKF outlier gate** - decision logic of correct.
* **C33 EKF visits every timestamp once and in order** - five-way merge as recursion; induction.
* **C34 EKF measurement report adds up** - counters over executions.
* **C35 EKF camera poses keep the image they belong to** - merge-join recursion; negation for duplicate stamps.
* **C36 Particle weights are a probability distribution** - ordered field lists.
* **C37 Particle resampling draws proportionally** - systematic resampling loop; counting argument; equal weights expected false.
* **C38 CSV and covariance files stay aligned under crashes** - trace of file operations; every prefix.
* **C39 CSV output is independent of the thread schedule** - interleavings of per-thread traces on a file map.
* **C40 load_states returns the requested image range** - row recursion; exact window.
* **C41 SLAM++ information rows are the reordered upper triangle** - list program on 144 entries over arbitrary type; index computation.
* **C42 Folder translation is consistent** - path component lists.
* **C43 vehicle.yaml sensor offsets round trip** - key-value nodes.
* **C44 mission.yaml round trips** - key-value nodes; expected false → negation + partial.
* **C45 Running mean and variance are exact** - Welford over an ordered field; induction.
* **C46 Ignored and clipped pixels do not bias the mean** - expected false → negation + partial.
* **C47 Trimmed mean lies within the data** - sorted list slice; image-level call expected to be degenerate → negation.
* **C48 XVIII raw images decode losslessly** - byte lists; explicit inverse.
* **C49 Loaded image intensities are unitary** - Nat shift and ordered field scale.
* **C50 Attenuation correction removes altitude dependence** - ℝ exp.
* **C51 Corrected images are valid 8-bit images** - clip/monotone reasoning over ℝ.
* **C52 Images and altitudes stay aligned** - filter over rows.
* **C53 Multi-dive parsing uses all dives** - fold over dives; expected false for colour correction → negation + partial.
* **C54 Images without depth map are dropped consistently** - delete indices in descending order = filter.
* **C55 Existing correction results are protected** - decision logic on folder state.
* **C56 Altitude bins are computed independently of scheduling** - digitize + commuting writes; permutation of schedules.
* **C57 User image lists select by name** - filter law.
* **C58 RANSAC returns the inliers of the best plane** - loop over sampled planes; expected false → negation + partial when stopping at goal / last best.
* **C59 Plane geometry is consistent** - ℝ, sqrt.
* **C60 Euler angles reproduce the rotation matrix** - ℝ, atan2 via Complex.arg; gimbal branch handled separately.
* **C61 Conversion never overwrites without force** - file-set model of the guards and writes; expected false for acfr_to_oplab.
* **C62 The parse pool always terminates** - task-pool state machine; expected false for aborting worker.
* **C63 Output images are verified after writing** - loop over an oracle of read-back outcomes; expected false (missing Console.warning).
* **C64 Bag camera clock offset** - configuration record; attribute lookup as a partial map; expected false → negation; offset arithmetic over ℚ.
* **C65 Malformed GAPS time telegrams do not give fixes a wrong time** - telegram field lists, time reading with exceptions; case analysis; negation for malformed times.
* **C66 Records inside the time window are used, all and only, in order** - list filter law per record kind; negation for the kind whose window reads another field.
* **C67 EKF and dead reckoning share one motion model** - ℝ rotations; the state transition of the filter and dead reckoning unfolded to one formula.
* **C68 Smoothing yields covariances that are no larger** - Mathlib PosSemidef order; induction backwards over the run; negation for the first state (entrywise product).
* **C69 The particle filter uses every fix taken during dead reckoning** - index loops of the particle filter; induction; negation for fixes before dead reckoning.
* **C70 Particles move as dead reckoning does** - ℝ rotations with the noise as parameter; negation for depth and altitude.
* **C71 Exported poses can be read back** - pose rows as field lists; writer and reader composed.
* **C72 SLAM++ edges are relative poses** - ℝ rotations; relative pose composed with the previous pose; negation for the second camera.
* **C73 Folder listing and removal** - file tree as a finite map; induction over the tree.
* **C74 Median smoothing is a median** - sorted windows; counting specification of a median.
* **C75 RANSAC mean is the mean of the best consensus set** - loop over draws as parameters; argmax specification; negation for NaN.
* **C76 Manual balance applies the configured affine map** - affine map over an ordered field; negation for grayscale images.
* **C77 filelist.csv lists exactly the corrected images with their navigation** - fold over processed images; negation for failures and equal names.
* **C78 Only images on the user's list are corrected** - filter law; negation for manual balance.
* **C79 Navigation entries hold the measurements at their time** - loop with four counters as recursion with an invariant per counter; each value shown to lie on the piecewise linear curve through the samples; negations for the deleted first entry and for Python index -1.
* **C80 Seafloor depth is depth plus altitude** - loop plus backward fill; induction; negation when there is nothing to copy from.
* **C81 Inertial velocities get the attitude at their time** - loop with one counter; invariant; negation between the first two orientations and before the first.
* **C82 The track agrees with the USBL fixes on average** - loop with one index into the track; invariant that each position is on the segment around the fix; sums; negations by witnesses.
* **C83 Every payload measurement is located by every solution** - strings as lists of characters, dictionaries as association lists; a suffix cannot create the other mark because its first character occurs once; exact list of files; negations by witnesses.
* **C84 Latitude and longitude agree with northings and eastings** - poses with optional coordinates; case split; negations.
* **C85 EKF poses have the altitude at their time** - loop with one index into the record; invariant; combined with the schedule of the EKF run.
* **C86 The EKF is run for the requested images and payloads** - insertion sort without repetitions; induction over the record for the selection.
* **C87 The detected laser line is the brightest window of a column** - columns as lists of brightness; weighted window sums against a specification with finite sums; induction over the scan; negation by a witness.
* **C88 Only images taken together are triangulated** - nearest neighbour loop with invariant; arithmetic of the evenly spread indices; negations by witnesses and a general theorem.
* **C89 Laser points are triangulated column by column** - merge of two lists; seeking twice equals seeking once; equality with a filter over columns.
* **C90 Sampling by depth keeps what fits** - loop over the shuffled cloud with one counter per bin; invariant relating counters and counts.
* **C91 Detections can be reused** - files as lists of optional items; round trip; negations.
* **C92 The uncertainty of a laser plane comes from its own points** - loop over an arbitrary list of draws; invariant; negations.
* **C93 Planes and angles of the laser calibration are geometrically right** - real geometry; arguments of complex numbers for atan2.
* **C94 Triangulation returns the point that was seen** - matrices over the reals; minimal residual zero implies kernel; kernel determined by the cameras.
* **C95 Fitted attenuation curves describe light that fades with distance** - Model curve_fitting with the optimiser as a parameter; bound the start values by case analysis; witness for equal altitudes.
* **C96 Intensities are fitted against the altitude of their own bin** - Filter of both lists modelled as filterMap; induction over both lists; witness.
* **C97 Attenuation parameters are stored at the pixel they belong to** - Flattening and reshaping as lists; induction over the rows for the index formula.
* **C98 The attenuation fit runs on every machine** - Integer arithmetic of the job count; case analysis; witness.
* **C99 Images are rescaled with their own altitude** - Selection of rows by substring; filter lemma; two witnesses.
* **C100 Rescaled images have the requested pixel size** - List of crop and resize operations; floor inequalities over an ordered field.
* **C101 Debayering keeps intensities in the unit interval** - Clipping and floor per pixel, conversion as a parameter.
* **C102 The calibration pattern has the geometry of the board** - Nested loops of array writes as a fold over index pairs; lemma for folds of List.set with distinct indices.
* **C103 The configured board is looked for** - Ordering of the board as max and min; witness for symmetric grids.
* **C104 Views used for a calibration differ from each other** - Induction over the detections with the accepted views as accumulator.
* **C105 A calibration repeated from saved detections uses the same views** - Both code paths are the same greedy choice; induction with the saved sizes equal.
* **C106 The best monocular calibration is kept** - Iterations as a recursion with the solver as a parameter; induction on the number left; best by fold.
* **C107 The rectification written belongs to the pose written** - Iterations as a recursion that returns all calibrations; the last of a decreasing list is its minimum; witness.
* **C108 Stereo views are removed because of their own error** - zip of views and errors; filter lemma for the first iteration; witness for the second.
* **C109 Corners are refined without reaching neighbouring corners** - Loops over indices as mapM; minimum of a fold; witness on a 2 by 3 board.
* **C110 Images of a second camera are resized to the size of the first** - Floor inequalities over an ordered field; witness.
* **C111 Stereo views are pairs of images taken together** - Reuse of the synchronisation theorem C88; membership in nested loops for names.
* **C112 Views are described by numbers between 0 and 1** - Area of a quadrilateral from its diagonals over the reals; clipping.
* **C113 The epipolar error is the distance of the rows** - Square root of a mean over the reals; witness.
* **C114 Calibrations are not overwritten unless asked** - The calibration folder as a state with every command a function to a state and an error; invariants over the sequence of cameras; witnesses.
* **C115 Repeating the monocular calibration changes nothing** - A camera that is done stays done; induction over the cameras.
* **C116 Forced calibrations use the saved detections, or new ones if asked** - Invariant before and after the camera is reached in the sequence.
* **C117 A stereo calibration is computed from the current monocular calibrations** - Case analysis over the states after the monocular calibrations; file names of different kinds differ in the first character; witness.
* **C118 All stereo pairs are calibrated** - Every camera is ready after the monocular calibrations; the three files are written in turn; witness.
* **C119 Projected points are pixels of the image** - Pinhole arithmetic over an ordered field with the range test as in the code; witness behind the camera.
* **C120 Triangulating the projections of a point gives the point** - The point solves the system of the two rays, whose solution is unique; field arithmetic.
* **C121 Distortion and its removal undo each other** - OpenCV's functions are parameters that are inverse to each other; the normalisation is inverted.
* **C122 Rectification and its inverse undo each other** - The composition of the steps; witness with a tilted rotation.
* **C123 Projecting to the distorted images never fails** - Case analysis of the refusals; witness.
* **C124 A downsized camera sees the same points at scaled pixels** - Scaling of focal lengths and centre; witnesses for the projection matrix and for the stereo file.
* **C125 A calibration file gives back the calibration** - Rounding to six decimals and the number of coefficients that are written; witness.
* **C126 A camera lists all its images in order** - Sorting is a permutation; case analysis over the number of wildcards; witness with two folders.
* **C127 Times and images of a camera fit together** - Invariant over all histories of requests; witnesses with a failing conversion.
* **C128 Timestamp files give the times of the images** - Rows with the index by induction over the file; witness.
* **C129 The altitude limits of the configuration are used** - Case analysis over the entries.
* **C130 Dives are only parsed together if their setups agree** - Equivalence of setups; induction over the lists of dives; witnesses for the order and for manual balance.
* **C131 Process uses the parameters that parse computed** - Folders as functions from files to the run that wrote them; runs as sequences of writes cut anywhere; invariant over histories; witness for a forced run that crashes.
* **C132 The command correct parses and processes** - The paths as the code computes them from a string; every branch fails.
* **C133 The cameras are described by the right file** - Case analysis over the files; induction over the cameras; witness.
* **C134 Different settings give different output folders** - The names can be parsed uniquely, digits being free of underscores; witness for fractions.
* **C135 All configured cameras are processed** - Induction over the cameras; witness with the names of the default file.
* **C136 Every image in FileTime.csv gets its own time** - Files as written by the camera; round trip of the digits; invariants of the matching loop; witness with an empty line.
* **C137 Paths of laser images exist** - The storage as a predicate on paths; case analysis over the conventions; witness.
* **C138 Times of NTNU stereo images** - Round trip through the digits of the name; witnesses.
* **C139 Times and paths of Voyis images** - Induction over the images with the variable that keeps the time; witness with a SYSTEM name.
* **C140 Fractions of seconds in logs** - Powers of ten are injective.
* **C141 Headings and depths of AE2000 logs** - Case analysis for headings; induction over the log for depths; witness for interpolation.
* **C142 All tide measurements are read** - Round trip of a line; induction over the lines; witnesses.
* **C143 Positions and times of HyBIS logs** - Round trip of the texts through slices; the reading of numbers is a parameter.
* **C144 Missing altitudes and depths of HyBIS are filled** - Invariants of the fold over the records; witnesses.
* **C145 Poses of HyBIS images** - Characterisation of the loop's index by induction; linear interpolation; witnesses.
* **C146 Reference position of HyBIS** - Case analysis on the reference; witness.
* **C147 Every valid ROS message gives its own record** - The worker as a state machine over bags; an invariant of each sensor object gives records that depend on their message only; induction over messages and bags.
* **C148 Implausible or missing ROS velocities are not recorded** - From C147, for every record; witness with a missing bottom track.
* **C149 The mounting angle of a sensor turns its measurements** - Rotation about the vertical axis; invariant over all histories for the uncertainties; witnesses.
* **C150 Uncertainties of positions agree in metres and degrees** - Field arithmetic and trigonometry; the geodesic library is a parameter; witnesses.
* **C151 Velocities and uncertainties of INS, DVL and pressure sensors** - Field arithmetic and roots; witnesses.
* **C152 Times of logs do not depend on the computer** - Exact difference of the two times; witness.
* **C153 Depths of the chosen transponder are found** - Lengths and cancellation of texts; witness.
* **C154 Stereo pairs extracted from bags consist of two images** - Specification of the first least value; distances to itself are zero; witness.
* **C155 Values of a line of a Sonardyne log** - The splitting of a line and the merging of quoted values as list functions; round trip for every list of values.
* **C156 Observations of a Sonardyne log** - The loop over the lines with the last observation as state; exact characterisation of its result.
* **C157 A fix uses the ship position closest in time** - The search loop as a recursion with the position of the ship as state; invariant: all earlier positions are before the observation.
* **C158 Values of a Sonardyne fix** - Trigonometric identities over the reals.
* **C159 Times of Sonardyne fixes do not depend on the computer** - The zone of the computer is a parameter of the model; the time is proved to be right exactly when it is zero or equal to that of the mission.
* **C160 Rows of GGA logs** - The row functions of the four formats; the result of a log is the list of results of its rows.
* **C161 Times of the logs of the ROV of 2020** - Round trip of the texts through slices of padded digits.
* **C162 Records of the position logs of the ROV** - Induction over the rows with the latest time as state; insertion sort for the stable merge.
* **C163 Which position logs of the ROV are read** - The pattern of the names as a function of the last character.
* **C164 Positions and headings of ROV images** - Induction over the images with the index of the record as state; invariant: all earlier records are before the image.
* **C165 Outputs of ROV dives** - The final statements as a decision over numbers of images; injectivity of padded digits.
* **C166 Lever arms of the ROV** - Linearity and orthogonality of the rotation (C01).
* **C167 Records of the logs of the ROV of 2021** - Reduction to the loop of C23 on the rows with values.
* **C168 Settings of a processing run** - The reading of the settings and the points where names of missing sections are used, as a sequence of decisions.
* **C169 Models of uncertainties** - The lookups with old names and defaults as functions on dictionaries.
* **C170 Covariance matrices of the settings** - Reshaping and cropping of lists; exact entries by index.
* **C171 Position of the laser camera** - The decisions over the formats and cameras.
* **C172 Time window of a run** - First and last record of an ordered list; round trip of dates (C10).
* **C173 Folder of the results of a run** - Decision over the existing folder; injectivity of the name for dates of 14 digits.
* **C174 Files of the poses** - The requests for files as a list that depends on the settings; no duplicates by comparison of the names.
* **C175 Relative uncertainties** - Decisions up to the results, and the sums entry by entry.
* **C176 Times of PHINS logs** - The slices of the text of a time; round trip through padded digits for every time of a day.
* **C177 Records of a PHINS log** - The parser as a state machine over lines; invariant over the lines read: the time of the state is that of the last time line.
* **C178 Orientations of PHINS logs** - Induction over cycles of lines for both orders; a count of attitudes and headings as invariant for all logs.
* **C179 Velocities of PHINS logs** - Refinement: the records of a log are what a specification says for every line and the lines before it, by an invariant of the state.
* **C180 Depths of PHINS logs** - As C179.
* **C181 Altitudes of PHINS logs** - As C179.
* **C182 PHINS logs in the acfr format** - Step by step comparison of the two formats; invariant: velocity and altitude of the state are those of the last lines.
* **C183 Orientations of ROS messages** - Quaternions of Mathlib as the specification of turning; the matrix of the code equals that of the quaternion, and its angles reproduce the matrix by trigonometry over the reals; induction over bags.
* **C184 Messages without an orientation** - The record of any such message is computed; it exists.
* **C185 Times of BioCam images** - Names are written by a specification from dates and padded digits; splitting, slicing and reading give the numbers back, for every date.
* **C186 Records of BioCam images** - The lists of files are parameters; the pairs are those of C17, carried from indices to files; filters are the identity on plain paths.
* **C187 BioCam dives in the acfr format** - Comparison of the two formats on the same lists of files.
* **C188 Files and times of AE2000 logs** - The text of a time is written by a specification from a date; splitting and reading give it back; induction over the rows.
* **C189 Velocities of AE2000 logs** - Induction over the rows; comparison of the two formats row by row; witnesses for the difference.
* **C190 Orientations, altitudes and depths of AE2000 logs** - As C189.
* **C191 Fixes of NMEA logs** - Lines are written by a specification from dates and telegrams; splitting and slicing give them back; induction over the lines; witnesses at midnight.
* **C192 Tide tables** - Columns of a line by slices of known prefixes; induction over lines and files.
* **C193 Fixes of USBL dumps** - Fields joined by commas are split again; induction over the lines; witnesses for the south and for blank lines.
* **C194 Records of ALR and Autosub logs** - Tables as lists of rows with optional values; induction over the rows; witnesses for gaps, layouts and signs.
* **C195 Records of EIVA and NTNU DVL logs** - A run of the line loop with its state; induction over the telegrams; witnesses for cut telegrams, labels and midnight.
* **C196 All clocks are treated alike** - One rule per format over exact rationals, compared with a three-term specification by linear arithmetic.
* **C197 Times of the vehicle in the clock of BioCam** - Induction over lines, slopes and the index loop; convexity of segments for the order; text lemmas for file names.
* **C198 Settings of correct_images.yaml** - Round trip from the documented structure through YAML; case analysis of readers; counterexamples for the false parts.
* **C199 Merging dives** - File store with copies; frame lemmas for all other paths; calendar lemmas for dates and names.
* **C200 Payload measurements** - Induction over rows; lookup and zip lemmas for columns; text lemma for lines.
* **C201 Corrections applied to an image** - Pointwise lemmas for each step; case analysis on type, method and metric; length argument on file names.
* **C202 Measurements are combined with the prediction in the best way** - Matrix algebra: completing the square in the weights; explicit formulas for single components.
* **C203 Exported navigation files have the rows of the exported images** - Characterise the written rows by filtering and stable sorting; decide all ways to fail.
* **C204 Statistics of an acquisition describe the images at the bottom** - Filters and folds over the rows; a counterexample with one image above the threshold.
* **C205 The time of an image in a bag finds this image** - Induction over messages and bags; counterexample with two frames 4 ms apart.
* **C206 Relative uncertainties of poses** - Quadratic forms of block matrices; counterexample with opposite errors.
* **C207 Poses of vehicle and cameras from the filters** - Linearity of the rotation of C01; counterexamples with one lever arm.
* **C208 Cleaning of the ship log of the ROV** - Invariant of the in-place loop; induction over the records for the speed filter.
* **C209 Pairs of GoPro images** - Induction over the rows.
* **C210 Fitting cones to laser points** - Vector identities in an orthonormal basis, trigonometric addition theorems, quadratic formula.
* **C211 What the sensors tell the Kalman filter** - Lookup in the list of assigned components, C01 for the lever arm, monotonicity of squares.
* **C212 The search for the uncertainty planes of a laser** - Induction over the draws; variance of a sublist against the variance of the list.
* **C213 Texts of the sensors** - Splitting of joined texts; Complex.arg for the bearing.
* **C214 Programs run the command they are asked for** - Case analysis with argparse as a parameter.
* **C215 Rescaling all cameras** - Induction over cameras and files.
* **C216 The filter finds the path of a straight run** - Invariant of the loop: the state is the true one; the innovation of every measurement is zero, so no gain moves it.
* **C217 Dead reckoning finds the path of a straight run** - Every stage maps data that are linear in time to data that are linear in time.
* **C218 The turn rates given to the lever arm correction are those about the vehicle's own axes** - Difference quotients of a steady turn (C08), then the rotation of the vertical.
* **C219 What was parsed is what is processed** - Composition of C13 (sorting), C27 (records) and C66 (loading), with the window taken from the second and last entry of the sorted file.
* **C220 A sheet of laser light seen without noise is found** - Composition of C89 (pairs), C94 (triangulation), C90 (sampling), C59 (fit) and C212 (triples).
* **C221 Every sensor of the mission is parsed once, by a parser of its format, from its own files** - The chains of conditions as tables of formats and calls, the parsers' choice of files as a function; case analysis over the tables.
* **C222 The times of BioCam images are corrected for the clocks of the cameras** - correct_timestamps with its counters as a recursion over the records; induction with the remaining predictions as invariant.
* **C223 The files written by auv_cal give back the calibration that was computed** - Writer and reader as functions on texts; digits, lists, lines and blocks are read back by induction, the bound from rounding to the nearest integer.
* **C224 Dead reckoning follows any smooth motion, to within a bound that vanishes with the sampling intervals** - A motion is any differentiable path with Lipschitz velocities; interpolation between exact samples, the mean value theorem for each step, induction over the steps, rotation invariance, the mean over the fixes used, and a Lipschitz bound for rotations.
* **C225 Corners of a chessboard are numbered alike in all views** - A view gives every corner of the board a place in the image; the detector lists it from one of the corners (two for rectangular, four for square boards). Rotating and reversing lists of any size by index arithmetic.
* **C226 Corrected images show the floor** - A light has parameters for every channel and pixel; a photograph is floor times light. The bins hold photographs of one altitude, so that their averages lie on the curve of the light; three points determine an exponential curve (Rolle), so that an exact fit is the light; the corrected values are floor times the light at the mean altitude, which the statistics divide out.
* **C227 The solution of the particle filter is a path** - An induction principle over the filter's loop carries invariants of single particles through propagation, weighting and resampling; the invariant is that consecutive points of the trajectory are joined by the motion reported for the first of them.
* **C228 The particle filter reports attitudes at their times** - The same induction with the invariant that each stored point carries the entry in force at the next step; the model writes a step's measurements into the last stored point, as the shared array does.
* **C229 Particles are spread by the configured uncertainties** - The noise term of the code compared with factor times size plus offset, in degrees; settings as sections with keys.
* **C230 Conversion of HyBIS dives** - The parser composed from the parts of C143-C146, from the texts of the rows to the lines of the output; the reference is a sum type of numbers and texts, as the function and the command line give it.
* **C231 The file of the USBL fixes** - The operations on the file as a list (process.py L1713-1743), related to those of write_csv so that the results of C38 apply; reading back by an independent splitter. The folder as a shared variable with interleavings of the main thread and the writers.
* **C232 Values in records of RDI logs** - The parser from the texts of the lines (fields split at commas, dates as digits) to the records, numbers being read by a parameter; logs are written by a specification of the format PD6. Induction over the ensembles with an invariant of the variables.
* **C233 Fixes of a whole Sonardyne MRT log** - The parser from the listing of the folder and the lines of the files to the records, composed of the pieces of C155-C158; logs are written by a specification of the format. Refinement by rewriting the selected and sorted lists as images of the entries.
* **C234 Positions of ROS messages** - The position object and its five kinds of messages in the worker of C147, with the JSON records of C27. Invariants of the object between messages (no position; no distance) give the records of every history of messages.
* **C235 Conversion of a dive of the ROV of 2020** - The whole run is composed from the parts of C162, C164, C165, C166 and C208. The loop over the images is shared by all quantities; its specification for every quantity gives the values of each image, and filtering and lever arms are maps over the kept images.
* **C236 Stereo records of a folder of images** - Both parsers are one function of the two lists of images and the lists of times the module holds. One call is specified for every content of these lists by induction on the images; histories follow by induction on the dives, the specification determines the records, so the same dive gives the same records again.
* **C237 Tide correction of a dive** - The edit of the JSON records is modelled as it is (three nested keys). One loop is shown, by induction on the results, to write the records of the measurements that C19's loop over samples gives; the file is then the file of these measurements (C219), and the correction keeps them valid, so C219 says what processing reads.
* **C238 Size of images and topic of a camera over dives** - The list of images, the topic and the size are the state of the camera object; setting the path of a dive is one step. One step is specified by the sorted list (C126) and the first message of a bag; all dives follow by induction, the list of images being kept.
* **C239 Merged dives are processed whole** - The file of a dive is its origin followed by its sorted measurements, because the text of the origin's time is the smallest; the merge keeps the first origin and names the images of each dive by its folder, record by record. The merged list is that of a single dive with the same measurements, so C219 gives what is processed, up to the order of equal times.
* **C240 combined.RAW.auv has every measurement of a dive** - The window of the export is that of the sorted file itself, so no measurement is dropped; each record gives the objects of its sensors (round trips C27). The run of the writer is that of C26 on these objects, and the words of each line are computed from the format strings.
* **C241 The views of a monocular calibration** - collect_corners from the list of files on: the results of the workers in the order of the list, filtered; the views by C104 and C105; composed with the run over all cameras by induction over their list, each camera writing only its own files.
* **C242 What the camera models write can be read** - to_str as lists of lines, read with the reader of C223: the lines before a key are skipped by induction; a matrix with a wrong number of elements and a missing key give no camera.
* **C243 A run of the correction of vehicle times** - main over a map from paths to tables, an error ending the run: the writes by induction over the files, the values of the cells by C197; counterexamples computed in the kernel.
* **C244 Laser poses from ACFR stereo poses** - The loop over the records of nav_standard.json on top of the reader of stereo poses (C25) and interpolate_camera (C05): rows by induction, positions from the text of the pose file by C25 and C05, counterexamples computed in the kernel.
* **C245 Images extracted from ROS bags and parsed** - Names of files from the decimal digits of the stamp, the folder as a map, the slice and float of the parser: times by the value of digits, records by induction over the bags and C154; counterexamples computed in the kernel.
* **C246 The log folder holds the configuration of every run** - Configuration files and log copies as maps, each command as a step, an edit as a step: a frame lemma per step and induction over the history; counterexamples computed in the kernel.
* **C247 Brightness of a folder of images** - Pixels in an ordered field, resizing as a parameter, the folders as a map: statistics by C45, files by induction over the names, counterexamples computed.
* **C248 Paths in graphs of frames** - The dictionary as a list of keys and neighbours, find_path by well-founded recursion: soundness by induction on the measure, completeness by induction on a path without repetition.
* **C249 Temporary files of correct_images parse** - Processes of the bins as lists of steps with program counters and an arbitrary schedule; an invariant over the schedule says which files exist; the end of the run is any prefix.
* **C250 Excluding images with bright artefacts** - The two scripts as functions on images and tables, the printed grep command as matching with dots as wildcards, composed with the model of the user's list of correct_images; list inductions.
* **C251 Position files of the ROV of 2020** - The glob pattern as a function on names; the conversion as the model of C235 with the chosen files; independence of the listing by uniqueness of sorted permutations.
* **C252 Which navigation is used** - Folders as a listing with predicates for existing tables; the choices of the four programs as functions; the loop over dives with its overwritten path as a fold.
* **C253 Parsing does not depend on directory order** - The loop over the listed logs with its variables handed on, values by the file and line they were read from; simulation of the reading of a single log; uniqueness of the sorted list.
* **C254 Log files hold the messages of a command** - Handlers, files and screen as a state; the contents of every file by induction on the history.
* **C255 Debayering a folder of images** - Reads and writes of the workers as steps over a map of files; schedules by their restriction to each image; an invariant over the remaining steps of each image.
* **C256 The images of a calibration** - Folders as listings, paths by their parts with the order of pathlib; sorted list is unique.
* **C257 The poses in the files of images** - Lists of images per camera and solution; interpolation and EKF update as parameters; case analysis of the run.
* **C258 Clouds and pictures of a laser calibration** - Text of the file and a separate reader; round trip by induction; invariant over histories of runs.
* **C259 The figures of attenuation** - Row-major list of names; exact division with rounding to even; names split at underscores.
* **C260 The filter starts where dead reckoning starts** - Initial state composed with the measurement functions and the poses saved; ring identities of the rotation.
* **C261 camera.yaml is read completely or not at all** - Loader over YAML values; iff with a relational specification by case analysis and induction over the list of cameras.
* **C262 Settings of the laser calibration take effect** - Settings over YAML values against a table of the documented keys; dependence of the result on the settings by rewriting.
* **C263 Devices sit where mission.yaml and vehicle.yaml say** - Composition of the readers of mission.yaml and vehicle.yaml; inversion of the binds, with the monadic map by induction.
* **C264 The overview of a parsed dive** - Grouping as a fold with an invariant per category; the loop for the update rate by induction against a search over the differences.
* **C265 The plots of the paths of a processed dive** - The search for the last index is the length of a takeWhile, which for sorted times is a filter; number of steps by integer arithmetic on floors.
* **C266 The plots against time of a processed dive** - Conversion of a column to numbers succeeds exactly if all values are given; bounds by positions of a zip.
* **C267 Virtual images of a laser line** - Floors and ceilings of a position between two rows; the two weights sum to one; induction over the points.
* **C268 Calibrations that are killed** - A run is the list of states of the folder it goes through; induction over the cameras with the invariant that a camera that was calibrated stays so, and that repeating it changes nothing.
* **C269 Corrections use the navigation of the last processing run** - Induction over the runs, from the last one; the folders present are those of the runs, so a run is refused exactly if it is not forced and an earlier one was for its window.
* **C270 The plots of the filters** - Columns by maps over the estimates; roots of variances from C29; the rejected measurements by induction over the events of C33.
* **C271 Rescaled images are as the settings say** - Induction over the sections, then C215 and C100 for one camera.
* **C272 The tables of the sensors show every measurement** - Interleavings of six threads and the main thread; the steps on one table are those of its thread; induction over its lines; reading the table back by splitting.
* **C273 Corrected images have the brightness and contrast asked for** - C45 gives the mean and variance that parse stores; the normalisation is affine unless it clips; every value is within the square root of n deviations of the mean.
* **C274 When a stereo calibration is found** - The one-sided Chebyshev inequality bounds the pairs removed per iteration by a fifth; induction over the iterations.
* **C275 Folders of corrected images over many runs** - File system as association list; induction over the history; without -F a folder with a file is never written to again.
* **C276 Delayed, turned and shifted dives** - Two runs related step by step: synchronisation, lever arm, integration, mean offset to the fixes and interpolation of the cameras each commute with the rotation about the vertical; shortest angle lemma for headings.
* **C277 Shifted and delayed dives in the Kalman filter** - The filter commutes with the shift: transfer function and Jacobian do not depend on position and fix positions, innovations are differences; induction over the loop and the smoother.
* **C278 Moved dives in the particle filter** - Every step of the filter commutes with the motion: weights depend on distances only, sorting and drawing on weights only; induction over the merged loop of entries and fixes.
* **C279 Exposure and order of the images do not matter** - Mean and variance under affine maps, permutations and repetition of the list of values; the normalised value does not change.
* **C280 A drawing of a folder shows all that is in it** - Trees as a nested inductive type; mutual structural induction over entries and contents.
* **C281 Matrices, quaternions and angles describe the same rotations** - ℝ; quaternions of three angles as products of three elementary quaternions; trigonometric and polynomial identities for each of the 24 names.
* **C282 Part of a dive is processed as in the whole dive** - Contiguous parts of sorted lists; uniqueness of the value on a piecewise linear curve; induction along the part.
* **C283 The pose of an image does not depend on the other images** - The enclosing poses are unique in a path in order of time; composition with C282.
* **C284 The USBL filter does not depend on where and when the dive was** - Each test of the filter is unchanged by the move; induction over the loops.
* **C285 More permissive settings of the USBL filter keep at least the same fixes** - Monotonicity of the tests; the distance loop keeps a sublist; counterexample with six fixes.
* **C286 Projections, scaling and shear do what geometry says** - Homogeneous matrices over the reals; unit vectors replaced by a vector of squared length 1; polynomial identities.
* **C287 Points inside a view volume get coordinates from -1 to 1, others do not** - Affine maps of intervals; the third coordinate decides the sign of the distance.
* **C288 Trackball points and random quaternions have length 1** - Squared lengths; induction over the list of axes.
* **C289 The matrix of a cell has the lengths and angles asked for** - Polynomial identities in sines and cosines; the Cauchy-Schwarz inequality for the parts of two edges across the third.

## Outcome per property

The full statements are in `properties.jsonl`, the theorem names in `MANIFEST.json`. `partial` means that the
property as stated fails of the code (the negation is then proved as `..._false`) or that only the named part is proved.

* **C01** proved.
* **C02** partial: False as stated: entry f of inertial_to_body (L70) uses sin(roll) where cos(roll) is needed. Negation with a witness; x and y always recovered; exact set of attitudes that round-trip.
* **C03** proved.
* **C04** proved.
* **C05** partial: False as stated: queries between the first two states return the second state; headings are interpolated without wrap. Partial theorem covers queries after the second state.
* **C06** partial: False as stated: index can stay at 0 (wraps to the last state), entries after the last centre time can be kept. Partial theorems give the exact conditions proved.
* **C07** partial: False as stated: the term is added where the transfer from the DVL to the centre subtracts it. Partial theorems: exact cross-product form, and exact recovery with the arm negated.
* **C08** partial: False at the second of exactly two samples (AttributeError). Everything else proved.
* **C09** proved.
* **C10** proved.
* **C11** partial: False as stated: CET is 0 h in read_timezone and 1 h in the mission loader; BST and numeric text also differ. Exact agreement set proved; unknown names rejected by both.
* **C12** partial: Decoding proved. The rejection of names of another length is false: surplus characters are ignored (zip); too short names are rejected only if a date or hour field is incomplete.
* **C13** partial: False as stated: entries are sorted by the text of the time stamp, so 10.0 comes before 9.0. Partial: chronological for stamps with equally many integer digits. Same entries and stability proved.
* **C14** partial: False as stated: two telegrams of the same kind after the target leave a stale value from before it; malformed times still give fixes; two equal telegrams at the start crash. Partial: invariant of the parser, full pairing when both kinds follow the target.
* **C15** proved.
* **C16** partial: False as stated: the last ensemble is never exported; attitude lines are attached to the time of the ensemble before. Partial: exact record list for all ensembles but the last (velocity and altitude).
* **C17** partial: One right image can be used twice; ACFR accepts a difference equal to the tolerance while BioCam does not. Nearest match and tolerance proved.
* **C18** partial: False as stated: stamp lists are module globals that are never emptied, so the second dive gets the stamps of the first. Partial: dives preceded only by dives without images; file names always right.
* **C19** partial: False as stated: the last interval of the tide record (and its first instant) is not corrected; nothing at all with two samples. Partial: exact corrected span, everything else unchanged.
* **C20** partial: False as stated: BioCam laser entries (file name under camera3 only) raise KeyError. Partial: exact merged list otherwise; differing origins always refused.
* **C21** partial: False as stated: the guard tests the output folder itself and starting the log creates that folder, so without -F the first dive is always skipped. Force never skips; existing output is never overwritten; new folders are parsed.
* **C22** proved.
* **C23** proved.
* **C24** partial: GAPS proved. USBL dump: the sign is applied to the degrees only; exact correctness condition proved.
* **C25** partial: False as stated: vehicle pose header is one line shorter than the reader expects; angles are written in degrees and read as radians with roll/pitch exchanged. Partial: stereo files keep origin, order, positions, names.
* **C26** proved.
* **C27** partial: Exact round trip for orientation, depth, inertial velocity, USBL, cameras and stereo pairs. Body velocity and altitude round-trip up to one field each (negations given); tide records are not read back.
* **C28** partial: Depth/time stage proved exactly. False: the first and last two fixes are always dropped; the first returned list is not depth filtered when the distance filter is off. Partial: exact characterisation of the distance stage.
* **C29** proved.
* **C30** proved.
* **C31** partial: Wrapping, innovations and all states after the first proved for whole runs. The initial state (compass headings up to 360) and smoothed states are not wrapped: negations given.
* **C32** proved.
* **C33** proved.
* **C34** proved.
* **C35** partial: Soundness for all lists; exact result for strictly increasing camera times. False for two images with one time: the second is dropped.
* **C36** partial: False as stated when likelihoods underflow (sum below 1e-20): the weights then do not sum to one. Everything else proved; Bayes' rule and unit sum proved above that threshold.
* **C37** partial: False at offset 0, and weights are not made equal. Size, order, membership and the position rule proved for all offsets; floor/ceil counts proved for offsets in (0,1).
* **C38** partial: False for lists of one record (nothing is written). Crash alignment proved for all crash points, including torn last lines; completeness proved for two or more records.
* **C39** partial: False when SLAM++ output is requested: poses are changed while a thread may still write them. Schedule independence, folder creation, mutual exclusion, deadlock freedom and termination proved for records that are not changed.
* **C40** partial: False for files of different lengths (TypeError). Exact range proved for files of equal length, and the exact result for files of any lengths (C40_exact); covariance columns and headers proved.
* **C41** proved.
* **C42** partial: False for paths that contain two of the keywords (each translation rewrites all occurrences). Proved for paths with one keyword.
* **C43** proved.
* **C44** partial: False as stated: settings not known to the writer are dropped, missions with several payloads or a single payload built in memory do not round-trip. Proved for missions as loaded from the documented fields.
* **C45** proved.
* **C46** partial: False as stated: a zero (or clipped) first image value, or zeroes followed by values, bias the running mean. Partial: exact conditions under which they do not; the mean stays within the data.
* **C47** partial: False as stated: on image stacks the per-pixel results are averaged in such a way that NaN or IndexError results (see C47_image_false, C47_monochrome_false). The per-pixel function is proved correct.
* **C48** proved.
* **C49** partial: False for source depths above 24 bits (rounding to float32 reaches 1). Proved for up to 24 bits; closed interval for every depth.
* **C50** proved.
* **C51** partial: Range and monotonicity within an image proved. Across images the order fails since the gamma branch depends on the whole image.
* **C52** proved: Proved for the branch with navigation (colour correction and bag files). pandas and pathlib are parameters; an altitude cell is None, NaN or a number.
* **C53** partial: False: get_imagelist empties the lists for each dive, so only the last dive is used (C53_last_dive_only_false, for all dive lists; C53_two_dives_false and C53_given_up_false are witnesses). Proved for one dive.
* **C54** proved: Proved for all image lists and sets of existing depth maps.
* **C55** proved: Proved for both modes, every file system content and every set of written files.
* **C56** proved: Bins characterised for real arithmetic edges; every order of the parallel writes gives the same tables. C56_left_over shows that ranges that are no multiple of 0.1 m leave images in no bin, which does not contradict the claim. Random sampling inside a bin is a parameter.
* **C57** proved: Proved for all tables and lists.
* **C58** partial: Proved: the returned inliers are those of the last sampled plane, and when the goal is met they are more than the goal. False: the last, not the best, iteration's inliers are returned, and the refit uses only three of them.
* **C59** partial: Distance proved for unit normals and false otherwise (shared memory halves the effect of scaling: the normal is divided twice); ray intersection proved for unit normals with nonzero first coefficient.
* **C60** partial: Proved away from gimbal lock and exactly at it; false inside the isclose tolerance around gimbal lock.
* **C61** partial: Proved: hybis and koyo20rov conversions overwrite nothing; oplab_to_acfr and acfr_to_oplab protect all but the named files. False: acfr_to_oplab guards names other than those it writes; oplab_to_acfr does not guard the combined RAW file and mission.cfg.
* **C62** partial: Proved for parsers that return or raise: every schedule ends within 2n steps with the results in order of submission. False when a parser calls Console.quit: waiting for the pool never ends under any schedule.
* **C63** partial: False: a success after a failed attempt raises AttributeError (Console.warning does not exist), C63_retry_false. Proved: at most five writes and the two ways it returns.
* **C64** partial: False: correct_images reads an attribute that does not exist (C64_attribute_false, all settings) and navigation counts the time zone twice in different units (C64_navigation_false: right only for time zone 0).
* **C65** partial: Proved for telegrams that state a valid time. False: an unreadable or impossible time still gives a fix with a made-up time; an unreadable ship telegram ends the parse.
* **C66** partial: Proved for all kinds but body velocity, whose window uses the DVL's own time stamp field; negation given.
* **C67** proved.
* **C68** partial: Proved for all states but the first, for whole runs. For the first state the code multiplies an ndarray entrywise where a matrix product is needed; a negative variance results: negation given.
* **C69** partial: False as stated: fixes before dead reckoning make get_prior compare the two lists entry by entry, skipping valid fixes or failing; a fix without uncertainty divides by zero (C69_exact_fix_false). Proved when the first fix is not earlier than dead reckoning and all have an uncertainty.
* **C70** partial: False about depth (vertical motion is added to the measured depth) and altitude (never updated). Horizontal motion, attitude and velocity proved.
* **C71** proved.
* **C72** partial: False for the second camera (absolute poses are written). Proved for the first camera.
* **C73** proved.
* **C74** proved.
* **C75** partial: False when values are NaN or when all draws are outliers. Partial: the result is the mean of the set chosen.
* **C76** partial: The affine map is proved; grayscale images never reach it (IndexError from the channel count).
* **C77** partial: Proved when every image was processed and output names are distinct. False for manual balance, for any image that fails, and for equal names in different folders.
* **C78** partial: Proved for colour correction; false for manual balance, which ignores the list (C78_manual_false).
* **C79** partial: False as stated: when exactly one orientation precedes the first velocity, the first valid entry is deleted and the track does not start at 0; before the first depth or altitude sample the value comes from the line through the last and the first sample. Proved when altitude and depth cover the DVL record: exact list of entries, every value on its curve, trapezoidal positions.
* **C80** partial: False when no altitude is later than the first depth (IndexError). Proved otherwise, up to the last depth.
* **C81** partial: False between the first two orientations (no attitude) and before the first (extrapolated through the last and first). Proved after the second orientation.
* **C82** partial: C82_agrees_on_average holds for every increasing track and every accepted record, with positions taken on lines through successive track points (OnSegment). False in the rest: a record of a single fix during the track is an IndexError, and when two fixes precede the second track point the position of a fix is extrapolated from a later segment, so a constant shift is not recovered. Proved under OffsetRecords: which fixes are used (all during the track except the first of the record), that positions are on the track, and exact recovery of a constant shift.
* **C83** partial: False as stated: a payload whose name contains _pf or _ekf gets no dead-reckoning position and is filed with that filter; with payloads laser and laser_pf and the particle filter on, the measurements of the second are lost; without USBL fixes the particle filter files have no positions. Proved for distinct names without these marks: the exact list of files.
* **C84** partial: False for dead reckoning without USBL fixes (latitude and longitude stay unset) and for the particle filter poses of the DVL (the longitude is a pair, the latitude is not assigned). Proved for aligned dead reckoning, particle filter poses of the vehicle and EKF poses. The conversion metres_to_latlon is a parameter here.
* **C85** partial: Proved for poses between the first and the last dead-reckoning entry, and for whole EKF runs over that interval whose end is an orientation time (C85_run, using C33_within_end). False in full: a pose after the last entry is an IndexError (C85_after_end, C85_false).
* **C86** partial: False when the last image is missing: the selection then runs to the end of the record. The other parts are proved for all records; in C86_times the payload times are those of the payloads whose key contains _ekf.
* **C87** partial: Columns, thresholds and window are proved for all images (C87_detection_partial). False in full: the last window of the rows is never examined, so a line only there is missed (C87_last_row_false).
* **C88** partial: The synchronisation and the selection are proved for all recordings; with more than 500 left images that all have a partner, 500 synchronised pairs are processed (C88_pairs_partial for times, C88_names_partial for BioCam file names, C88_short_names_partial for names of fewer than 26 characters, matched by equal names). False otherwise: with at most 500 images the synchronised lists are not used and images are paired by position (C88_few_images_false); with more than 500 images and missing partners the selection can run over the end of the list (C88_missing_partners_false).
* **C89** proved: For columns that are integers, each at most once and in increasing order, which is what the detection returns (C87_columns). The triangulation is a parameter here.
* **C90** partial: Proved for a positive maximum. False for a maximum of zero: one point per bin is kept.
* **C91** partial: Proved for the same settings and at least one detection per line. False if there is no detection (the file holds an empty item that cannot be read back) and if the second laser was switched on after the first run.
* **C92** partial: Proved for the first laser, with a positive minimum distance. False for the second laser: the list of planes is not emptied, so the planes of the first are reported again (C92_second_same, C92_second_laser_false). If all points have the same depth the loop never ends (C92_flat_endless_false). The fit of the mean plane is not part of this property.
* **C93** partial: Everything except the plane returned by build_plane is proved; that plane mixes the offset of the normalised normal with coefficients that are not normalised and misses the point (C93_build_plane_false).
* **C94** proved: The singular value decomposition is a parameter: any unit vector minimising the residual. C94_rectified discharges the uniqueness hypothesis for every rectified pair with a baseline and every point off the plane of the camera centres.
* **C95** partial: Proved if the positive altitudes of a pixel are different from each other. False otherwise: equal altitudes divide by zero and give infinite parameters (C95_equal_altitudes_false). The optimiser (scipy least_squares) is a parameter, assumed to respect the bounds given to it.
* **C96** partial: Proved if altitudes and intensities are finite in the same bins. False otherwise: values that are not finite are removed from the two lists separately (C96_shifted_false).
* **C97** proved: The fit of one pixel is a parameter here; C95 and C96 are about it.
* **C98** partial: Proved for at least two processors. False for one processor with enough memory: zero jobs, which is an error.
* **C99** partial: Proved if exactly one row's stem is part of the image name. False in full: stems are matched as substrings, so image 12 fails if there is an image 2 (C99_several_false), and without its own altitude takes that of image 2 (C99_wrong_altitude_false).
* **C100** proved: Resampling itself (Pillow) is not modelled; sizes and crop boxes are.
* **C101** proved: OpenCV's conversion is a parameter; it is assumed to stay in 16 bits and, for the second statement, to keep constant images.
* **C102** proved.
* **C103** partial: Proved for chessboards and asymmetric grids, and for symmetric grids with as many rows as columns. False for other symmetric grids: rows and columns are exchanged, and the second attempt uses the same sizes (C103_exchanged_false).
* **C104** proved.
* **C105** proved.
* **C106** proved: OpenCV's solver and numpy's standard deviation are parameters, assumed to give an average not below all errors and a standard deviation that is not negative.
* **C107** partial: Proved if the error decreases from iteration to iteration. False otherwise: the rectification is always that of the last iteration (C107_mixed_false).
* **C108** partial: Proved for the first removal. False afterwards: the errors are those of all views and are zipped with the views left (C108_shifted_false).
* **C109** partial: Proved for square boards. False for others: the index of a corner is computed with the number of rows (C109_rectangular_false).
* **C110** partial: Proved up to one pixel for images that are relatively not wider than the target. False in full (C110_rounding_false).
* **C111** proved: Reading a time from a name is a parameter (C13, C14).
* **C112** proved.
* **C113** partial: Proved if the column difference is at least the row difference for every point, and always as a bound. False in full: the smaller of both differences is used (C113_same_column_false).
* **C114** partial: Proved for mono, for stereo with two cameras, and for laser if the stereo calibration exists and that of a second laser does not. False in full: stereo with three cameras overwrites the calibration of the reversed pair (C114_reverse_pair_false) and laser that of the second laser (C114_second_laser_false).
* **C115** proved: Detection and solver are deterministic parameters.
* **C116** proved: Detection and solver are parameters; the run is assumed to end without error.
* **C117** partial: Proved for images of the same size, and for different sizes if there are no resized detections yet. False in full: resized detections are never renewed, not even with -FF (C117_stale_false).
* **C118** partial: Proved with -F, without suffix, for images of one size. False without -F: the program ends if the first pair is calibrated (C118_second_pair_false).
* **C119** partial: Pixel and range proved; the statement that points behind a camera are refused is false (C119_behind_false).
* **C120** proved: The singular value decomposition is a parameter that minimises the residual.
* **C121** proved: OpenCV's distortion and its numerical inverse are assumed to be inverse to each other.
* **C122** partial: Proved for rectifications about the optical axis; false for tilted rectifications (C122_tilted_false).
* **C123** partial: Proved for points that the right camera sees or the left does not; a point that only the left camera sees is an exception (C123_left_only_false).
* **C124** partial: Proved for the intrinsics; false for the projection matrix, which is scaled as a whole, and for stereo files, for which the ratio is ignored (C124_projection_false, C124_stereo_file_false).
* **C125** partial: Precision and the coefficients of a new camera proved; for a camera that was read from a file only the first coefficient is written (C125_rewrite_false).
* **C126** partial: Proved for paths without wildcard; with wildcards only the first matching folder is used (C126_every_match_false).
* **C127** partial: Alignment and stability proved for all histories. False in full: after a failed conversion the next request returns the times found before the failure (C127_complete_false), and times of modification are looked up in the current folder (C127_modification_false).
* **C128** partial: Proved for distinct indices. False in full: a camera with a timestamp file and no format is accepted and never gives a time (C128_timestamp_file_only_false). It is assumed that pandas keeps values assigned to rows.
* **C129** proved: Entries parse and process are assumed to have both limits.
* **C130** partial: Acceptance proved for configurations with a section on colour correction. False in full: the altitude limits of the last dive are used (C130_order_false), and without that section the comparison fails (C130_manual_false).
* **C131** partial: Proved for runs that end, and for crashes of runs without -F. False in full: after a forced run that crashed, files of two runs are used together (C131_crash_false).
* **C132** partial: Proved for parse. False for correct, which always fails: the path is split into its characters, and the options of memmap are missing (C132_correct_fails, C132_paths_split).
* **C133** partial: Proved in full for known image systems; for others without correct_images.yaml the program fails with an exception (C133_no_default_false).
* **C134** partial: Proved for brightness and contrast rounded down; fractions are lost (C134_fraction_false).
* **C135** partial: Proved for distinct names. False in full: cameras with the same name, as in a default camera.yaml, end the program (C135_same_name_false).
* **C136** partial: Proved in full for the laser camera; for the stereo cameras without short lines and with numbers without a decimal point. False in full: a short line aborts the parser (C136_stereo_file_false).
* **C137** partial: Exact condition proved. False in full (C137_laser_paths_false).
* **C138** partial: The time that is read and the order within a second proved. False in full: four decimals are taken for milliseconds (C138_ntnu_time_false, C138_ntnu_order_false).
* **C139** partial: Proved for stills with PPS names and with the offset subtracted. False in full: SYSTEM names are not recognised, laser images get the paths of stills (C139_voyis_false, C139_laser_paths, C139_system_format_unused).
* **C140** partial: Exact condition proved: three digits or zero (C140_fraction_false).
* **C141** partial: Headings, kept depths and completeness of values proved. False for interpolation, because repeated values are dropped (C141_depth_false).
* **C142** partial: Proved for all measurements but the first, which is lost (C142_tide_file_false); the standard deviation is negative for heights below the datum (C142_std_false).
* **C143** proved: Proved in full for positions with five decimals of minutes.
* **C144** partial: Proved: measured values kept, isolated missing ones lie between their neighbours. False for the first and last record and for runs (C144_missing_false, C144_run_false).
* **C145** partial: Proved at the times of records, in the last interval and for steady motion, and which records are used. False in full: the records after the image are used (C145_between_false), and headings are not wrapped (C145_heading_false).
* **C146** partial: Proved away from the equator and the Greenwich meridian. False in full (C146_reference_false).
* **C147** partial: Proved in the format oplab for known message types. False in full: the format acfr gives nothing (C147_acfr_empty, C147_complete_false), unknown types lose the rest of the bag.
* **C148** partial: Proved for cola2, and for Teledyne when the track that is used is complete. False in full (C148_missing_false).
* **C149** partial: Proved: range of headings, rotation of velocities, uncertainties without mounting angle. False in full: headings are not turned (C149_heading_false), uncertainties become negative (C149_std_false).
* **C150** partial: Proved for positions given in degrees. False for NMEA, ROS poses, satellite fixes and USBL dumps (C150_*_false).
* **C151** partial: Proved for velocities, the NTNU filter and the speed model. False for the vertical uncertainty of the INS (C151_std_false) and the pressure (C151_pressure_false).
* **C152** partial: Exact condition proved; differences of times are right. False in full (C152_time_false).
* **C153** partial: Exact condition proved: labels of one character. False in full (C153_found_false).
* **C154** partial: What is returned is proved: every image with itself. False in full (C154_pairs_false).
* **C155** proved: Proved in full.
* **C156** partial: Exact list of observations proved. False in full: JobData lines repeat the previous observation (C156_job_false) and a complete USBLRangeObs record stops the parser (C156_usbl_range_rejected).
* **C157** partial: Proved: once, in order, the next position at or after the observation, or the last one. False in full: not the closest one (C157_closest_false).
* **C158** proved: Proved in full.
* **C159** partial: Exact conditions proved; differences of times are right. False in full (C159_false): the zone of the computer is used, and the offset has the wrong sign for GGA.
* **C160** partial: Proved for logs with readable times. False in full: an unreadable time stops the parser (C160_unreadable_time_stops, C160_false).
* **C161** proved: Proved in full for times of six digits.
* **C162** partial: Exact set of records proved. False in full: the first record of every file is lost (C162_first_lost_false).
* **C163** partial: Proved for names that do not end in F, I or X. False in full (C163_files_false).
* **C164** partial: Proved for positions and for headings that do not pass north. False in full (C164_heading_false).
* **C165** partial: Exact condition proved. False in full: without laser images with a pose nothing is written (C165_no_laser_false).
* **C166** proved: Proved in full.
* **C167** partial: Proved for rows in order of time. False in full (C167_out_of_order_false).
* **C168** partial: Exact conditions proved. False in full: without usbl_filter or plot_output the run stops, and with interactive plots also without particle_filter or with the USBL filter off (C168_sections_false, C168_filter_off_false).
* **C169** partial: Proved for given models and without a section std. False in full: a section without one of the quantities stops the run (C169_missing_false).
* **C170** proved: Proved in full.
* **C171** proved: Proved in full.
* **C172** proved: Proved in full, for records in order of time; no records is an error.
* **C173** proved: Proved in full.
* **C174** partial: Proved for at least two images and for names that differ. False in full: single images (C174_single_image_false), cameras named dvl (C174_distinct_false).
* **C175** partial: Exact condition and the sums proved. False in full: two cameras (C175_two_cameras_false), EKF off in the settings.
* **C176** partial: Proved for times on the date of the file. False in full: after midnight the times are a day early (C176_midnight_false).
* **C177** proved: Proved in full.
* **C178** partial: Exact result proved for the order of lines of the manual and for time lines first; nothing is recorded twice. False in full: in the order of the manual attitudes have the time of the cycle before (C178_time_false), and after a lost heading values of two cycles are combined (C178_lost_heading_false).
* **C179** partial: Body velocities proved in full; inertial ones proved with the uncertainty sent before them. False in full (C179_own_std_false).
* **C180** partial: Proved for readable times. False in full: an unreadable time is replaced by an older one (C180_own_time_false).
* **C181** partial: Proved for altitudes after the times are known. False in full: before that they are recorded late (C181_late_false).
* **C182** partial: Values of velocity lines proved; other records stop the parser, exactly characterised (C182_depth_false, C182_empty_partial).
* **C183** proved: Proved with an error of at most 2^-49 of the size of the vector, and without error unless the nose is vertical.
* **C184** partial: False for every such message (C184_record_false): it gives a record; with the zero quaternion the record says level and heading north (C184_level).
* **C185** partial: Proved for times from 2000 on. False in full: earlier times, as of a camera without a set clock, give 0 (C185_clock_not_set_false), and names with one time always stop the parser because the ending of the file is read as a part of the fraction (C185_old_names_stop).
* **C186** partial: Proved for plain paths if the second camera has strobed images or the first has none. False in full: otherwise the parser stops (C186_one_camera_false), and below folders with "._" in the name images are not found (C186_folder_false).
* **C187** partial: Proved for dives without laser images. False in full: no dive with a laser image can be converted (C187_laser_stops).
* **C188** partial: Times proved to the millisecond for every date and log. False in full: folder and offset are those of the velocity for every sensor (C188_folder_false, C188_offset_false); proved if they agree.
* **C189** partial: Oplab format proved in full. The acfr format has the same velocities for a DVL in line with the vehicle (C189_formats_partial). False in full: it is not turned by mounting angles (C189_rotation_false), and a missing field stops it (C189_missing_false).
* **C190** partial: Orientations proved in full for both formats, altitudes for the oplab format. False in full: the acfr format has depths that were left out (C190_depth_false) and no altitudes (C190_altitude_acfr_empty).
* **C191** partial: Proved for all logs whose computer has the date of the telegram and whose fractions have three digits (C191_fixes_partial). False in full: a telegram noted after midnight is a day late (C191_midnight_false), '.5' is 5 ms (C191_fraction_false), a label given as text never matches (C191_text_label_false).
* **C192** partial: Times and heights proved for all tables (C192_records_partial). False in full: the deviation is height times offset, negative below the datum (C192_std_false); a blank line makes the parser fail (C192_blank_line_false).
* **C193** partial: Proved for all dumps with northern and eastern positions or whole degrees (C193_fixes_partial). False in full: minutes have the wrong sign in the south and west (C193_south_false), a blank line makes the parser fail (C193_blank_line_false), a label that YAML reads as a number never matches (C193_numeric_label_false).
* **C194** partial: Records of all rows and columns proved for tables without NaN times and with one time column (C194_records_partial, C194_columns_partial, C194_autosub, C194_std_partial). False in full: a NaN time changes its neighbours (C194_nan_time_false), two time columns raise KeyError (C194_columns_false), deviations can be negative (C194_std_false), the mounting angle is ignored (C194_mounting_false).
* **C195** partial: Proved for complete telegrams, numeric labels and logs within a day (C195_orientations_partial, C195_label_partial, C195_ntnu_partial, C195_no_std, C195_other_category). False in full: an incomplete telegram repeats the previous orientation (C195_stale_false), a text label finds no positions (C195_label_false), rows after midnight keep the date of the file (C195_midnight_false), a velocity without bottom lock is recorded (C195_no_lock_false).
* **C196** partial: For each format the exact condition under which its times are right (C196_right_iff_partial); all formats agree exactly if zone, offset and computer zone are zero (C196_agree_iff); differences are always kept (C196_differences). The rules are those of the modelled parsers where these exist (C196_rules); for AE2000, RDI, rosbag and payload they are transcribed. False in full (C196_clocks_false).
* **C197** partial: Proved: the lines are read as written (C197_polls), when a correction exists (C197_fit_iff), interpolation with two or more polls (C197_line_partial, C197_at_polls), order for increasing BioCam times (C197_order_partial), nothing is overwritten (C197_no_overwrite), names for one file per option (C197_files_partial). False in full: one poll or two at the same vehicle time fail (C197_usable_false), order (C197_order_false), several files after one option (C197_files_false).
* **C198** partial: Proved: values and defaults (C198_values), only known methods and metrics (C198_accepted), set-up of a camera when the section of the attenuation is there (C198_setup_partial), folder names for three channels (C198_manual_partial). False in full: manual balance without the attenuation section fails although accepted (C198_method_false), balance of one channel has no folder (C198_monochrome_false), balances with the same diagonal share a folder (C198_folder_false), limits that nothing meets are accepted (C198_limits_false); empty sections stop the run (C198_empty_sections).
* **C199** partial: Proved: dates are read from folder names (C199_date), the name of the merged folder for any order (C199_name), the merge when the processed folder of the first dive has the settings (C199_merged_partial). False in full: nothing writes these settings, so no first merge completes (C199_never_completes, C199_merge_false) and the file left behind is unsorted (C199_left_unsorted); dives between the first and the last do not count in the name (C199_name_false); a dive without camera.yaml is not parsed (C199_needs_camera).
* **C200** partial: Proved: records of all rows and columns for files without a column epoch_timestamp and integers that are converted exactly (C200_records_partial), written rows read back by name (C200_line), all payloads in the known format (C200_payloads_partial), a file without times is refused (C200_needs_time). False in full: a column epoch_timestamp is dropped (C200_column_false), the time that is written lacks the offset (C200_time_iff, C200_time_false), integers beyond 53 bits are rounded (C200_values_false), another format or a payload missing in mission.yaml ends the run (C200_format_false).
* **C201** partial: Proved: every value of the output for types grayscale, bgr and Bayer (C201_colour_partial, C201_bayer, C201_balance_partial), need of a distance (C201_distance_iff), one output for each image (C201_run). False in full: images of type rgb come out with red and blue exchanged (C201_rgb_false, C201_balance_rgb_false, C201_colours_false); the calibration is looked for under a name that auv_cal never uses, so that the request is ignored (C201_undistort_iff, C201_undistort_false).
* **C202** proved: Full, for measurements with independent errors, which all measurements built by the filter are (C29_built_diagonal), and with the variances that the filter uses (size, not below 1e-9).
* **C203** partial: One row for each image holds if the images in the navigation file have different names without folders; images of the same name in two folders both get a row (C203_once_false).
* **C204** partial: Counts, average, times, distance along the counted images and swept surface in full. The distance is that at the bottom if all images are below the threshold; otherwise the ways between two stays at the bottom are counted as well (C204_bottom_false).
* **C205** partial: Holds for images recorded within half a second of their stamp and at least 5 ms from others of the topic; of closer frames the first is loaded (C205_own_false), later recorded ones are not found (C205_late). The offset is a parameter; see C64 for its computation.
* **C206** partial: The written covariances are sums, which is right for uncorrelated errors (exact condition proved) and at most a factor of two too small as variance; opposite errors are understated (C206_understated_false). With two cameras the run always fails (C206_two_false).
* **C207** partial: Positions are proved for the filter and dead reckoning. The filter shifts depth but not altitude from the DVL to the origin, so the seafloor is right exactly if both are at the same depth (iff proved, C207_seafloor_false). Latitude and longitude of a camera are those of the vehicle's origin (C207_latlon_false). The particle filter shifts no depth (C207_particles_false).
* **C208** partial: The value that replaces a missing one is characterised for every position (C208_filled, C208_first, C208_valid). It is the interpolation for single missing values; the first of several is taken towards zero (C208_between_false), a missing last one stays (C208_missing_false), a missing first one is taken from the line through the last and the second record. The speed filter keeps exactly the right records if the first one is right; a wrong first record removes all right ones (C208_right_false).
* **C209** partial: The parser ignores the dive's folder: relative paths are looked up from the working directory (C209_pairs_false). Proved for a start in the raw folder of the dive, and for paths from the root anywhere (C209_absolute).
* **C210** partial: The rotation is Rodrigues' (C210_rotation). The residual is the sine of the angle to the cone, not the distance, and on the axis it uses the cosine in place of the sine (C210_distance, C210_axis, C210_distance_false); off the axis it is zero on the cone only (C210_zero_partial). Intersections are exact unless the ray is parallel to the cone (C210_ray_partial, C210_parallel, C210_ray_false). Drawing a plane fails for every image with a pixel (C210_plane_partial, C210_plane_false). The least squares optimiser is not modelled.
* **C211** partial: The first component's standard deviation decides for all (C211_own_false); a negative angle or depth reduces the standard deviation of the settings, to 0 and beyond (C211_offset_false). Proved for sensors that give all standard deviations or none, and the offset for DVL, USBL and readings that are not negative.
* **C212** partial: The search ends exactly when enough good triples have been drawn (C212_ends), so it can end exactly for clouds that have one (C212_possible). The smallest distance is twice the standard deviation of the points (C212_min_dist), so no cloud of three points has one (C212_needs_four, C212_three_endless: endless), and not every cloud of four (C212_search_false: a square). The least squares fit is a parameter; clouds whose points coincide seen along the first axis (nan) are excluded.
* **C213** partial: Tables: proved in full. Sidescan: a pose with a longitude but no latitude loses it (C213_longitude_false). Bearing: it is seen from the origin of the mission (C213_bearing_partial), not from the ship (C213_bearing_false). Number formatting is a parameter.
* **C214** partial: auv_cal: proved (C214_cal). auv_nav and correct_images ignore the arguments they are called with from another module (C214_nav_ignores, C214_nav_false, C214_correct_false); on the command line they run what is asked (C214_nav_partial, C214_correct_partial), except that a single word is taken for the path of a dive by correct_images (C214_correct_single). argparse is a parameter.
* **C215** partial: Proved for cameras that are in camera.yaml and images that end with .jpg, .png or .tif (C215_all_partial); other cameras are left out without an error (C215_unknown_false), and so are other endings (C215_ending_false).
* **C216** proved: Composition of the models of C34, C202 and C211: start, prediction, all four kinds of measurement, gate, innovations, wrap of the angles, loop, smoother. Measured angles may differ by whole turns. Arithmetic is exact.
* **C217** partial: Composition of the models of synchronisation (C79), angular rates (C08), lever arm (C07), dead reckoning (C09), shift onto the fixes (C82) and sensor interpolation (C06). True without condition for attitude, velocity, depth, altitude and for the horizontal position but for one constant shift; the shift is the vector from the origin to the transponder (C217_track_partial, C217_payload_partial), because the fixes of the transponder are compared with the origin of the vehicle: C217_usbl_false. Exact when the transponder is at the origin (C217_transponder_at_origin).
* **C218** partial: False: the rates of roll, pitch and yaw are used as rates about the own axes (C218_banked_false). In a steady turn they are right exactly if the vehicle does not turn or is level (C218_level_partial, an equivalence).
* **C219** partial: Composition of compiling, sorting, choosing the window and loading. Proved for valid measurements whose time stamps have the same number of digits before the point (C13): C219_all_partial, C219_window_partial. False: body velocities are in the order of the vehicle's clock but carry the DVL's (C219_body_order_false; they are out of order by less than two seconds); a None among the results drops the whole sensor if it is first and stops the parse otherwise (C219_first_invalid, C219_later_invalid, C219_invalid_false); if parse is stopped between writing and sorting, processing can silently lose everything (C219_interrupted_false).
* **C220** partial: Composition of pairing, triangulation, removal of the rectification, change of axes, stratified sampling, fit and search for triples. Proved whenever a report is written and the optimiser finds coefficients with zero residuals if there are any: C220_cloud, C220_all_points, C220_found_partial; C220_reported says when there is a report. That the double division by the length of the normal (C59) does no harm here is part of the proof. Missing: the optimiser itself; and the full claim is false because with three points the search for triples never ends (C220_three_points_false).
* **C221** partial: Proved: C221_supported, C221_once, C221_only_configured. The files: C221_own_partial under the assumption that logs with several sensors are named alike in all parts that use them (SharedLogs). False in full: parsers of shared logs take the files of the velocity (or orientation, usbl) part for every kind (C221_own_false), and the format alr2 calls its parser with six of its five arguments (C221_alr2_false).
* **C222** partial: Extends C22 from one camera to the whole function with the interleaved counters, and to its caller. Proved: C222_corrected (any regression), C222_exact (a regression that finds lines), C222_parsed_partial (format biocam with a pair as first record). False in full: the format biocam4000_15c uses the same parser but its times are never corrected (C222_format_false), laser images of a dive without pairs stay as they are (C222_laser_only_false), and a dive with one pair fails (C222_one_pair_false).
* **C223** proved: Proved on the text of the files: C223_mono, C223_stereo, C223_intrinsics_once. Six decimals are too few for the fundamental matrix: that of an ordinary pair can be read as zero (C223_fundamental_false). The reader is a model of cv2.FileStorage for files of this form. Finite numbers only; coefficients of the plumb bob model (the only one auv_cal asks for).
* **C224** proved: C224_displacement (without fixes), C224_track (with fixes), C224_converges, C224_payload, for all motions. The DVL is at the origin of the frame: elsewhere the lever arm correction has the wrong sign (C07). The transponder is at the vehicle's origin: its mounting position is not used (C217_usbl_false). Beginning and end of the payload's list: see C06.
* **C225** partial: C225_numbered_partial, C225_view_partial and C225_stereo_partial for boards seen upright. C225_standing_false: a square board standing on a corner is numbered depending on the detector. C225_leaning_false: two views of a square board turned by about 45 degrees can be numbered from different corners.
* **C226** partial: C226_parameters_partial, C226_corrected_partial and C226_same_floor_partial for averages of bins (`mean`), for altitudes in steps of a bin, floors that are the same on average at every altitude, an optimiser that finds an exact fit if there is one, and values not above 0.95; C226_uniform_partial also for `median` and `ransac_mean` over even ground. C226_trimmed_false: with `mean_trimmed` all parameters are 1, 0, 0, nothing is corrected. C226_bright_false: where the light at the mean altitude is above 0.95, the corrected image is white. Missing: altitudes that vary within a bin (the fit is then not exact) and floors that differ between altitudes.
* **C227** proved: Proved: C227_moves for every run; C227_runs for settings with one factor and offset per quantity, at least two entries and one fix, in order, fixes after the first entry and at other times than entries; C227_start and C227_straight without noise.
* **C228** partial: False (C228_attitude_false): the state vector is stored in the trajectory without a copy and the next step writes its measurements into it, so that every point but the last reports the attitude, velocity and depth belonging to the next point (C228_next_partial: exactly so, for all runs without noise; the altitude is that of the first entry). C228_steady_partial: right if attitude and velocity do not change. The depth of the last point is not covered (C70_depth_false).
* **C229** partial: C229_spread_partial: as configured for depth and velocities that are not negative; exact rule for angles. False: the offset of the angles, in degrees, is used in radians (C229_degrees_false); for negative values factor and offset cancel (C229_backwards_false); settings per axis, which the movement model understands, make the run fail with KeyError because the uniform ones are printed (C229_axes_false).
* **C230** partial: False for the command (C230_command_false): --reference-lat and --reference-lon have no type, so the parser gets texts and the geodesic computation fails for the first image, whatever the log (C230_command_fails). Proved for the parser called with numbers: C230_lines for all logs, C230_steady_partial (log texts to poses) for steadily moving vehicles with altitudes and depths that are not zero and a reference without zero. Behaviour between records of other vehicles: C145.
* **C231** partial: False for a single fix (C231_single_false: nothing is written) and for schedules in which a writer of raw measurements creates the folder between the look and the mkdir of process (C231_folder_false). Proved for two or more fixes (C231_read_back_partial), for all crash points (C231_crash), and C231_folder_partial tells exactly which schedules fail.
* **C232** partial: False in four ways: the angle of the dvl is used as radians (C232_mount_false), the signed error velocity becomes the uncertainty (C232_uncertainty_false), attitudes are in radians (C232_attitude_false), and the format acfr fails at the first record (C232_acfr_fails). Proved exactly for all logs: C232_velocity, C232_altitude, C232_orientation, C232_orientation_none; C232_velocity_partial is the property for dvls in line with the vehicle. That the last ensemble is lost and attitudes get the time of the ensemble before is C16.
* **C233** partial: False in three ways: the configured file itself is only tested for existence, never read (C233_configured_not_read, C233_configured_false), positions flagged as invalid become fixes (C233_invalid_false), and without a ship position or heading the parser fails instead of giving the positions (C233_no_ship). For a missing file it returns None (C233_missing), of which parse.py then takes the length. C233_run_partial is the property for the files that continue the configured one. Which ship position goes with a fix is C157, the other values of a fix are C158, job lines C156. Special characters of glob in the file name are not modelled.
* **C234** partial: C234_fixes_partial: positions are those of the messages, in order. Uncertainties are those of the same message for poses and receivers (C234_uncertainties). False: fixes of receivers with status 1 or 2 are dropped (C234_status_false); records of Evologics modems have no uncertainty (C234_evologics, C234_uncertainty_false); records of poses in metres and of modems cannot be read with the model "linear" (C234_linear_unreadable), and the others then have the offset less the factor as uncertainty (C234_linear_less), because their distance to the ship is -1. Messages after one of an unknown type are lost, and nothing is recorded in the format acfr (C147).
* **C235** partial: C235_run_partial: exactly when the files are written, and all lines of all three files; C235_log and C235_plain_log: which records are used (C162, C208); C235_pair: the two cameras are as far apart as on the vehicle. False: positions that cannot be reached are used, because the call of filter_bad_measurements is a comment in convert.py (C235_unreachable_false); nothing is written without laser images (C165_no_laser_false) and headings are interpolated the wrong way round across north (C164_heading_false), both restated by C235_run_partial. Not covered by C235_run_partial: logs in which all records have the same time, values that are not numbers, and the texts of the lines.
* **C236** partial: C236_acfr_time: the time in every name; C236_acfr_partial and C236_ntnu_partial: the first dive of a process, from the listing to the records; C236_single: one camera; C236_unreadable: one name that cannot be read; C236_acfr_format: the lines of the acfr format; C236_again: parsing the same dive again, any number of times, changes nothing. False: a later dive gets the times of earlier ones, because the lists of times belong to the module and are never emptied (C236_history_false; C236_history_partial says exactly which times it gets); NTNU images 6 ms apart are not paired because four decimals are read as milliseconds (C236_ntnu_tolerance_false), and a dive with left images only is not parsed (C236_ntnu_left_only). Not covered: the rounding of floats, and histories in which a dive failed half way.
* **C237** partial: C237_corrected_partial: the whole file, for results in order of time and tide records that are not empty; C237_processed_partial: what processing reads from it; C237_no_tide. False: a tide file without samples ends the parsing of a dive with depths with an IndexError (C237_empty_tide_false); a depth that comes after a later one is corrected by a height extrapolated from a later interval (C237_order_false). Not covered: the last interval of the tide record, which is never used (C19), and BioCam clock correction in the same run (C222).
* **C238** partial: C238_image, C238_bag, C238_rejected: one dive, for paths without wildcard; C238_dives and C238_topic: all sequences of dives. False: files with the ending raw always count as 1280 by 1024 pixels (C238_raw_false); a bag whose first message cannot be decoded is skipped, even if others can (C238_bag_false); all dives have the size of the first image of the first dive (C238_dives), and a dive without a topic in its mission has the topic of an earlier one (C238_topic_false). Not covered: missing ROS packages; errors of imageio are one error here.
* **C239** partial: C239_all_partial, C239_window_partial: from the measurements that the parsers return for each dive, over the sorted files, the merge and the sorted merged file to the lists that are processed; C239_origins; C239_names. C239_laser: dives of which one has a laser image of the BioCam are never merged, whatever else was parsed, hence C239_laser_false. That the command itself ends with an error after the file was written is C199.
* **C240** partial: C240_lines_partial: from the measurements that the parsers return over the sorted file to the text of the lines. C240_mono_false: dives with one camera get a second line for each image, of an image without name and time. C240_stops_false: a valid fix without depth ends the export with a TypeError, with only the lines before it written. Missing: measurements that lack a value that the file needs; decimal texts of numbers are a parameter.
* **C241** partial: C241_saved_partial, C241_used and C241_command_partial: what is saved and used, and what a run of mono leaves for each camera. C241_collected: it works exactly if the first image can be read and one has a sharp view. C241_skip_partial: unreadable files other than the first make no difference; C241_skip_false: an unreadable first file ends the program. C241_message_false: if the pattern is not found the program ends with an OpenCV error (an image None is written) and the cameras after it are not calibrated. OpenCV is a parameter.
* **C242** partial: C242_column_partial: true of a MonoCamera whose distortion coefficients are a column, as a new MonoCamera has them. C242_row_unreadable: a camera that was read from a file has them in a row; only the first is written, and the text cannot be read (C242_rewrite_false). C242_stereo_unreadable: no text of StereoCamera.to_str can be read, because a line break after extrinsics: is missing (C242_stereo_false). The reader is OpenCV's FileStorage as modelled for C223.
* **C243** partial: C243_run_partial: what a run writes when all files can be corrected and no input is named as the output of another. C243_keeps: without -f nothing that exists is changed, whatever the error. C243_all_or_none_false: the files before one that cannot be corrected stay written. C243_inputs_false: with -f the output of one input can be another input. C243_again: a corrected file is refused as input. The text of csv files is not modelled.
* **C244** partial: C244_rows: one row for each laser image with its time and file, nothing else. C244_positions_partial: from the text of a stereo pose file with increasing times, positions of images after the second and up to the last pose. C244_after_false: an image after the last pose is extrapolated without limit. C244_first_false: an image between the first two poses is put at the second. C244_keeps: no overwrite without -F. C244_emptied_false: with -F and no pose the file is emptied before the run fails. Attitude (see C05, C25) and the text of rows are not part of it.
* **C245** partial: C245_records_partial: from bags to records, for stamps of at least 0.1 s and no two in the same 10 ns: one record per image with its time and file (and the same file as the other camera, C154). C245_time_partial: time read from a name. C245_time_false: stamps below 0.1 s, as in simulation, are read ten times or more too late or not at all. C245_order_false: stamps in the same 10 ns become equal, since the last digit is cut with the suffix. C245_images_partial: distinct stamps are all in the folder. C245_images_false: images with the same stamp, as from two cameras, replace each other. C245_stray_false: any other file ends the parser. Contents and encoding of images are a parameter.
* **C246** partial: C246_inputs: in every history a file that exists is only changed by an edit. C246_logged_partial: mission, vehicle, auv_nav.yaml and correct_images.yaml are in the log and stay, if auv_nav.yaml existed and no later run has the same time. C246_default_false: the default auv_nav.yaml that a first run writes and uses is not logged, since it is copied before process starts. C246_camera_false: the camera.yaml used by correct_images is not logged. C246_same_time_false: runs in the same second replace each other's copies, also with different suffixes. C246_parse_camera_false: without camera.yaml in the raw folder parse fails. C246_parse_partial: with it, it goes on. The contents and their loading are parameters.
* **C247** partial: C247_files_partial: what is written for images of three channels and one size in another folder, and that nothing else changes. C247_stats: mean and variance per pixel. C247_turned, C247_place_false: the statistics are used with rows and columns exchanged, for every separable way of resizing. C247_white_false, C247_brighter_false: white becomes 0, since 256 does not fit a byte. C247_bytes_partial, C247_brighter_partial: below white. C247_sources_false: writing to the folder of the images replaces them. C247_grey_false: images without colour are refused. Resizing, the square root and the random sample are parameters; zero deviations and the limit on disk space are not modelled.
* **C248** partial: C248_path: what is returned is a simple path along edges. C248_found: a path is returned exactly if there is one; the search is a total function, with the keys not yet visited as measure. C248_edges: every edge once. C248_vertex. C248_add_partial: one edge between the two ends is added and all paths stay. C248_add_false: its direction depends on the hashes of the ends.
* **C249** partial: C249_finished: a run without errors leaves nothing, for every interleaving. C249_during: exactly what the folder holds while the bins are computed. C249_after_partial: what a run that ends later leaves. C249_kept: no file of others is removed. C249_unknown: an unknown smoothing method never finishes. C249_stack: slices of the stack. C249_left_false: a run that fails leaves the maps and stacks, since cleanup is only called at the end. C249_cleanup_false: cleanup would not remove the stacks, whose names only the copies of the corrector in other processes have.
* **C250** partial: C250_table: one row per image, jpg before png, with the brightest mean of channels, exactly if all images have channels. C250_listed_partial: listed are exactly the images with a pixel whose mean is above the threshold, for paths without commas and quotes. C250_order. C250_removes: the command removes every listed line. C250_keeps_partial, C250_training_partial: end to end with correct_images. C250_grey_false: one grey image ends the script. C250_spot_false: a saturated red spot is not listed. C250_keeps_false: 1.png also removes 11.png. C250_comma_false: paths with commas are kept. C250_training_false: an image of the same name with another extension brings the bright one back. C250_read_back: a reader of csv files gets every path of the list back.
* **C251** partial: C251_files_partial: what is read is a position file; names that end in other characters than F, I, X are all read. C251_files_false: the pattern [!FIX] is a set of characters, so KOYO_II.csv is not read. C251_inputs, C251_none: missing inputs. C251_listing_partial, C251_convert_partial: any order of listing gives the same records and the same outputs if no two records have the same time. C251_listing_false: otherwise not.
* **C252** partial: C252_used: the table exists, is of the camera, and comes from the configured or first listed folder, from the filter exactly if its folder exists. C252_found_partial. C252_dives: independence of the dives before. C252_acfr: the ACFR conversion and rescaling agree. C252_found_false: another entry json_... listed first. C252_folder_false: a filter folder without a table for the camera hides dead reckoning. C252_listing_false, C252_same_false.
* **C253** partial: C253_file_partial: the file is the same for every order of records, logs and sensors if time stamps differ. C253_gaps: a folder gives the fixes of its logs, one after the other, if each can be read by itself. C253_gaps_partial: any listing gives the same fixes, each from one log. C253_run_partial: composition, the navigation file is the same for every listing. C253_ties_false: equal stamps. C253_invalid_false: an invalid record first drops the sensor, later it stops the program. C253_gaps_false: a log that lacks a heading can be read only after another. C253_mixed_false: it then takes the heading of the other log. C253_dat_names: exactly the files with .dat in their names are read.
* **C254** partial: C254_command: contents of the log of a command in a process that logs nowhere else, and of all other files. C254_messages: contents for every history of opened logs. C254_before, C254_screen, C254_folder, C254_bar. C254_single_false: handlers are never removed, so the log also gets the messages of later commands. C254_folder_false: the two programs keep the log of several dives with different dives.
* **C255** partial: C255_all_partial: result for every interleaving, also in place. C255_schedules: any two schedules give the same files. C255_again_partial: sources kept and a second run gives the same if another folder or not PNG. C255_refused, C255_patterns. C255_mono_false: MONO, offered by the help text, writes nothing. C255_sources_false: PNG images in place are replaced.
* **C256** partial: C256_images, C256_sorted, C256_listing (independence of the order of folders and listings), C256_once_partial, C256_pattern, C256_stamp_partial. C256_once_false: a folder given twice. C256_stamp_false: of several matching time files the last listed is used.
* **C257** partial: C257_rows_partial (name, track and mounting position of every file), C257_complete. C257_pf_false: with the particle filter on and no position fix its image files are written without poses. C257_laser_name_false: if the first BioCam camera records the laser, the laser images are placed at it but named after the second. C257_written: the files are written whatever number of cameras the mission has. C257_at_dvl: the file of laser images at the DVL is written.
* **C258** partial: C258_cloud (a PLY reader gets back every cloud), C258_files, C258_names, C258_pictures_partial (histories without overwriting and with one number of lasers). C258_limit_false: max_cloud_size bounds what is saved, not what is fitted. C258_pictures_false: pictures are not redrawn when detections are overwritten.
* **C259** partial: C259_figures, C259_names, C259_row_partial (images more than half as wide as high), C259_plots_partial, C259_all, C259_curves_partial and C259_saved_partial (at least 100 pixels). C259_row_false: rows of narrow images without figure. C259_plots_false: image_corrected_std_1.png and _2.png show the first channel. C259_saved_false: with fewer than 100 pixels the plot fails with a ValueError before the parameters are saved. C259_figure_name: the exact name of a figure, with four digits for each coordinate.
* **C260** partial: C260_start, C260_depth, C260_fix, C260_compass, C260_velocity_partial (no turning or DVL at the centre). C260_velocity_false: the filter works with the velocity of the DVL but starts with the lever arm corrected one.
* **C261** partial: C261_camera, C261_read, C261_only, C261_files, C261_label; C261_names_partial, C261_apart_partial, C261_finds_partial (names without slash). C261_names_false: the first letter of a name with a slash is dropped whatever it is. C261_apart_false: /a/b and /a_b clash. C261_finds_false: the same topic in both files is not found since mission.yaml keeps slashes. C261_named_false: an empty item gives a camera without name. C261_found: a camera is found exactly if one has its name.
* **C262** partial: C262_settings_partial (all settings but one), C262_accepted, C262_unused, C262_outputs_partial (section detection given). C262_settings_false: max_points_per_bin of the file that comes with the program is read as max_bin_elements and has no effect. C262_unused: max_cloud_size, sample_size_ratio, goal_inliers_ratio and max_iterations do not matter for the result. C262_outputs_false: without the section detection the laser is written and then a KeyError ends the program. C262_second, C262_first: which files are written for which values; C262_used, C262_whole: what becomes of the numbers.
* **C263** partial: C263_device_partial (origin is not given or the default), C263_cameras_partial (the first camera has an origin if this one has), C263_heading (old files). C263_device_false: the origin of a sensor is checked for existence, but the sensor takes the default node. C263_cameras_false: if the first camera has no origin, those of the others are overwritten by their names. C263_optional_false: if the first has one and another has none, the program ends. C263_manual_false: the mission.yaml of the manual has an origin without a date, and cannot be read.
* **C264** partial: C264_traces, C264_complete, C264_titles, C264_span, C264_table, C264_rate, C264_times_partial (not the last half microsecond of a second), C264_drawn_partial (frames body and inertial, no eleven records at one time), C264_exit_partial. C264_times_false: times in the last half microsecond are drawn a second early (C264_times_late). C264_drawn_false: two records of another frame raise a TypeError. C264_exit_false: eleven records of one time end the program with exit code 0, and the dives that follow are not parsed.
* **C265** partial: C265_frame, C265_grow, C265_slider, C265_steps_partial (paths of at least 40 seconds), C265_last, C265_names_partial, C265_path_partial (no particle filter or no interval), C265_particles. C265_names_false: the path of the centre by the filter is called ekf_dvl. C265_short_false: under 40 seconds the step is 0 and the slider is not written. C265_end_false: the last frame never shows the last position. C265_particles_false: particles have no times, so with an interval, which the configuration that comes with the program has, neither file is written if the particle filter ran.
* **C266** partial: C266_velocity_partial, C266_uncertainty_partial (components given for all records or for none; north and east velocities for all), C266_position, C266_orientation_partial (lines, not names). C266_velocity_false: a record without north velocity and the file is not written. C266_uncertainty_false: only the first record decides if a component is drawn. C266_orientation_false: lower bounds of angles are called upper bounds. C266_position_panels, C266_orientation_panels: values, bounds and deviations are drawn in their panels.
* **C267** partial: C267_pixels, C267_centre_partial, C267_drawn_partial (points between two rows), C267_altitudes, C267_plane_partial (planes y = -d), C267_made_partial (no point beyond the middle of the last row). C267_drawn_false and C267_adds_false: a point right on a row is drawn black. C267_step_false: steps are stretched if they do not divide the range. C267_plane_false: only the last coefficient of the plane is used. C267_made_false: a point in the lower half of the last row is an IndexError. C267_points: number and spacing of the points of an altitude.
* **C268** partial: C268_mono_partial, C268_stereo_partial (two cameras of one size, without -F), C268_laser_partial (one laser, or -F): for every point at which no file is being written. C268_force: mono with -FF, for every point. C268_same: a run that is not killed is that of the model of C114 to C118. C268_mono_false: a calibration that was being written counts as made and stays incomplete. C268_detections_false: detections that were being written make every run but one with -FF fail. C268_laser_false: killed between the planes of two lasers, the second is never written. C268_stereo_false: with -F, the next run can use an old monocular calibration that the run would have replaced. C268_laser_same, C268_stereo_same: runs that are not killed leave the files of CalFiles.
* **C269** partial: C269_origin: for all histories, killed runs included, a table of poses is that of the last run that was not refused and wrote it. C269_filter_partial: the positions of the last run are used if all runs are for the same window and the last one writes the camera by the filter. C269_dead_reckoning_partial: likewise if no run uses the filter. C269_filter_false: after a forced run without the filter, the old positions of an earlier run with the filter are used. C269_window_false: with two windows, the folder that the system lists first is used. C269_killed_false: after a forced run that was killed, the cameras have positions of two runs. C269_repeat_partial: the same command with -F after a killed run writes all its tables; C269_repeat_false: without -F it is refused and tables are missing for good. C269_relative_partial: a run for relative uncertainties of a window that was processed changes nothing; C269_relative_false: for another window it leaves an empty folder, and corrections that find it first stop. C269_never_overlooked: a table of the filter in the configured folder is used, also after killed runs.
* **C270** partial: C270_columns, C270_speeds: the columns drawn and the plot of velocities, for all lists of estimates with variances that are not negative; C270_run: those of every run of the filter are such. C270_rejected: for every run, as many points per sensor as the report has dropped measurements, at times of measurements of the sensor, in order. C270_spread_false: the standard deviations of the particle filter are never computed, its plot is empty. Bounds of positions and orientations: C266. Not covered: texts of the points, smoothed estimates. C270_fields, C270_one_field: the fields of the grid in which the lines are drawn.
* **C271** partial: C271_size_partial: for all sections and disks, the section of an image and the size of its pixels; C271_kept: images that keep their size; C271_folder: a section without a folder ends the command. C271_flag_false: the documented flag 'N' keeps the size, any text is true. C271_shipped_false: the size 0.01 in the shipped settings, with the comment 'in meters', is read as centimetres, so that pixels are a hundred times smaller. Numbers are exact; what the interpolation of PIL computes is not covered.
* **C272** partial: C272_complete_partial: for all measurements, schedules and changes by the main thread, tables of at least two measurements, read back by column. C272_killed_partial: a run killed at any step leaves the old table or the first measurements. C272_single_false: one measurement leaves no table. C272_race_false: the main thread removes the first inertial velocity from the list that a thread is still writing, so that the table may lack a measurement. C272_altitude_false: altitudes have no column for their uncertainty. A step is one line of a table; the texts of values are a parameter without commas.
* **C273** partial: For every channel of every pixel, for all images and altitudes. C273_targets_partial: mean and deviation with the parameters that parse computes, if no value is clipped. C273_few_images_partial: nothing is clipped if the contrast times the square root of the number of images is at most the brightness and what it lacks to 100. C273_uniform_partial: the same without altitudes. C273_clipped_false: clipping moves the mean. C273_written_false: the gamma correction follows, the images written with the shipped settings have a mean above 36 instead of 30.
* **C274** partial: C274_written: what is written comes from at least eight different pairs and is not worse than the first calibration; C274_few: fewer than eight pairs are never enough. C274_good_first_partial: eight are enough if the first error is at most 0.6. C274_forty_partial: 40 are enough whatever the solver and the errors are, unless all errors are equal, because at most a fifth of the pairs is removed in each of four iterations. False in full: one of eight pairs is removed and the program gives up (C274_eight_false); if the pattern is found again in no image all pairs are removed, however many there are (C274_undetected).
* **C275** partial: C275_unforced_partial: without -F all files of the folder come from one run, and the list is only there if it holds exactly the images of this run. C275_listed_partial: after a run with -F the list and the images listed are those of this run, whatever came before. C275_same_images_partial: nothing else is there if earlier runs corrected no other images. False in full: images of earlier runs stay (C275_leftover_false); a killed run with -F leaves the old list beside new images (C275_list_false); a killed run cannot be completed without -F (C275_repeat_false).
* **C276** partial: C276_path_partial: the dead reckoning path aligned with the fixes, unless two headings at most two measurements apart are exactly opposite. C276_images_partial: which images get a pose and the poses, unless two headings of the dive are exactly opposite. Both runs also fail alike. Without fixes the path starts at zero, so that shifts are then excluded. Latitudes, standard deviations and the filters of the fixes are left out. False in full: between exactly opposite headings the vehicle is taken to turn the other way round after the move (C276_opposite_false).
* **C277** partial: C277_filter_partial: the whole run of the filter, including which runs fail, for fixes (and depths, if they are shifted) with uncertainties. C277_smoother: the smoother on any list of estimates. False in full: without uncertainties a fix is trusted less the farther it is from the reference position (C277_fallback_false).
* **C278** partial: C278_moved_partial: for every delay and horizontal shift without conditions, including which runs fail; for other depths and headings if the deviation of depths or angles has no factor and no fix is used before the first entry of dead reckoning. Headings are not wrapped to 0-360 degrees. False in full: the noise of depths grows with the depth (C278_depth_false).
* **C279** partial: C279_exposure, C279_order, C279_repeated: for the metric uniform, for every channel of every pixel (before rounding; a pixel with the same value in all images, for which numpy divides by zero, is outside the model). False with a metric of distance: values above 0.95 are left out of the statistics (C279_altitude_false); for exposures below that see C226_same_floor.
* **C280** partial: Soundness, order, indentation and corners for all trees (C280_only, C280_indent, C280_corner); completeness for trees with not more folders than the greatest depth, 100 by default (C280_shows_partial). False in full: the depth is counted up from one folder to the next one beside it, so the content of later folders is missing (C280_shows_false). Children are given in the order of sorted; folders that cannot be listed are not modelled.
* **C281** partial: Proved for all 24 names (C281_euler, C281_quaternion, C281_names), C281_hamilton, C281_inverse, C281_axis, C281_mirror, C281_slerp, C281_slerp_unit. Products and axes only above the smallest length (C281_product_partial, C281_axis_quaternion_partial; C281_product_false, C281_axis_quaternion_false: shorter ones do not turn). False: capital letters are taken by quaternion_from_euler only (C281_names_false); with an odd spin the interpolated quaternion does not have length 1 (C281_slerp_spin_false). Exact reals; reflection_from_matrix and the other functions that need eigenvectors are not modelled. C281_angles_back: angles found from a matrix give the matrix back, except next to the end of the range of the middle angle; C281_quaternion_back: the quaternion found from a matrix is the one it was made of or its opposite; C281_angles_locked: exactly at the end of the range of the middle angle the matrix is recovered with one angle zero.
* **C282** partial: Proved at all times between the first and the last orientation of the part (C282_part_partial, C282_found_partial, C282_path_partial), also for the poses of the vehicle after the shift onto any USBL fixes (C282_poses_partial). False at the edges, where the turn rate for the lever arm is taken from one side only (C282_edge_false). Sensors have records in strictly increasing order of time; dead reckoning only.
* **C283** partial: Proved for measurements after a pose of the vehicle and not after one that comes before the last measurement (C283_alone_partial), and for parts of dives (C283_part_partial). False for the last measurements: the search for the pose is stopped by the time of the last measurement (C283_alone_false).
* **C284** proved: Proved for real numbers, with standard deviations left as they are (C284_carried).
* **C285** partial: Proved of the highest speed (C285_faster_partial) and, with the distance filter switched off, of the factor (C285_factor_partial). False of the factor otherwise: a wrong fix let through the depth filter makes the distance filter drop its right neighbours (C285_factor_false).
* **C286** partial: Proved of projections (C286_orthogonal, C286_parallel, C286_perspective, C286_pseudo), of scaling (C286_scale, C286_scale_along) and of the way points move in a shear (C286_shear, C286_shear_made). Points keep their height if the direction lies in the plane (C286_shear_height_partial). False otherwise: directions up to a millionth out of the plane are accepted (C286_shear_height_false).
* **C287** proved: Proved of boxes (C287_box), of pyramids for all points that have coordinates at all (C287_pyramid) and of what is accepted (C287_accepted).
* **C288** partial: Proved of points (C288_sphere), of the chosen axis (C288_nearest; for points on the near half of the sphere there always is one, C288_chosen) and of random quaternions (C288_random). Proved of arcs for all axes but the one that points straight away (C288_arc_partial). False of that axis: a zero vector is normalised (C288_arc_false).
* **C289** proved: Proved for lengths that are not negative and for first and second angles between 0 and 180 degrees (C289_cell); what is refused does not exist (C289_refused).

## Which parts of the code are modelled

Generated from the citations in `lean/Verif/Model/*`: lines of each source file that some definition models, and the
model modules. Simplifications are stated at the definitions. Lines not listed are not modelled: mainly logging,
argument parsing, plotting (`plot_results.py`), image processing done by cv2, and the files of the last paragraph.

* `auv_cal/auv_cal.py` (Commands): 17-135
* `auv_cal/calibration.py` (CalCrash; CalFiles; CalImages; CameraCal; CollectCorners; LaserYaml): 33-53, 56-68, 71-114, 117-192, 195-247, 261-281, 318-667, 681-683
* `auv_cal/camera_calibrator.py` (CalFiles; CalText; CameraCal; CollectCorners; CornerOrder; StereoFound): 24-25, 35-47, 70-89, 92-115, 118-131, 134-217, 277-291, 313-328, 351-369, 385-400, 402-418, 420-458, 464-490, 503-557, 559-683, 685-810, 878-957, 960-1037, 1096-1137, 1240-1347, 1403-1413, 1442-1553, 1557-1593
* `auv_cal/cone_fitting.py` (Cone): 16-37, 64-66, 74-114, 117-132, 199-226
* `auv_cal/euler_angles_from_rotation_matrix.py` (Calib): 8-9, 12-29
* `auv_cal/laser_calibrator.py` (Laser; LaserClouds; LaserPairs; LaserRun; LaserUncert; LaserYaml): 27-56, 59-83, 86-91, 94-107, 109-128, 131-202, 205-215, 218-235, 252-318, 354-426, 428-517, 519-562, 565-590, 594-640, 659, 662-712, 714-765, 767-945, 984-1039, 1099-1195
* `auv_cal/plane_fitting.py` (Calib; Cone; LaserUncert): 26-45, 95-100, 113-133, 135-142, 164-208
* `auv_cal/ransac.py` (Calib): 22-27, 34-70
* `auv_nav/auv_nav.py` (Commands; ConfLog; HybisRun; LogFiles; Parse): 26-292, 299-305, 308-330
* `auv_nav/convert.py` (AcfrLaser; Convert; HybisRun; Koyo20; KoyoFiles; KoyoRun; NavChoice; RawExport): 37-376
* `auv_nav/localisation/dead_reckoning.py` (DeadReckoning): 11-27
* `auv_nav/localisation/ekf.py` (CameraFiles; Ekf; EkfPose; EkfStart; FilterPlots; Outputs): 23-36, 39-52, 55-70, 78-94, 96-125, 127-179, 188-210, 222-239, 241-287, 289-316, 318-359, 370-411, 431, 437, 439-442, 444-464, 466-502, 504-526, 528-630, 632-665, 667-782, 838-872, 874-1032, 1058-1070, 1073-1121, 1124-1171
* `auv_nav/localisation/pf.py` (EkfPose; FilterPlots; Particle; ParticleRun; PathPlots): 25-28, 45-222, 236-237, 259-262, 270-271, 273-279, 281-285, 287-294, 296-321, 323-326, 329-345, 349-384, 386-398, 401-430, 434-562
* `auv_nav/localisation/usbl_filter.py` (Usbl): 26-30, 36-48, 51-193
* `auv_nav/localisation/usbl_offset.py` (Offset): 20-134
* `auv_nav/parse.py` (BioClock; Clocks; ConfLog; Convert; Merge; MergeRun; NavFile; Parse; ParsePlots; ParseTasks; StereoRun; TideRun): 17-46, 49-97, 100-175, 179-233, 243, 254-655, 658, 663-783, 785, 789-812
* `auv_nav/parsers/acfr_combined_raw.py` (Acfr; Convert; RawExport): 40-64, 66-103
* `auv_nav/parsers/acfr_stereo_pose.py` (Acfr; AcfrLaser): 15-70, 119-137, 175-259, 262-304
* `auv_nav/parsers/acfr_vehicle_pose.py` (Acfr): 15-60, 99-113, 147-197, 206-239
* `auv_nav/parsers/generic_csv_payload_parser.py` (Clocks; Payload): 6-25
* `auv_nav/parsers/hybis.py` (Hybis; HybisRun): 21-47, 49-61, 63-75, 81-261
* `auv_nav/parsers/koyo20rov.py` (Convert; Hybis; Koyo20; KoyoClean; KoyoFiles; KoyoRun): 26-53, 55-105, 107-131, 134-157, 159-188, 190-214, 216-239, 298-345, 362-367, 376-461, 463-491, 493-518, 520-639, 641-693, 695-814, 816-1075, 1077-1117
* `auv_nav/parsers/parse_NOC_nmea.py` (Clocks; ImageParsers; NavFile; NocLogs; ParseTasks): 22-73
* `auv_nav/parsers/parse_NOC_polpred.py` (Clocks; NocLogs; ParseTasks): 24-36, 45-68
* `auv_nav/parsers/parse_acfr_images.py` (Clocks; Parse; ParseTasks; Parsers; StereoRun): 19-20, 26-48, 51-184
* `auv_nav/parsers/parse_ae2000.py` (Ae2000; Clocks; ImageParsers; ParseTasks): 25-454
* `auv_nav/parsers/parse_alr.py` (Clocks; ParseTasks; Parsers; VehicleLogs): 18, 23-24, 26, 29-48, 56, 59-77, 79-176
* `auv_nav/parsers/parse_autosub.py` (Clocks; ParseTasks; Parsers; VehicleLogs): 23-24, 26, 48-100
* `auv_nav/parsers/parse_biocam_images.py` (BioClock; Biocam; Clocks; Parse; ParseTasks; Parsers): 23-26, 29, 32-56, 59-87, 99-269, 271-387
* `auv_nav/parsers/parse_eiva_navipac.py` (ParseTasks; SensorFrom; VehicleLogs): 18-28, 52-97
* `auv_nav/parsers/parse_gaps.py` (Clocks; Convert; GapsFiles; ParseTasks; Parsers): 26-469
* `auv_nav/parsers/parse_interlacer.py` (NavFile; Parsers): 16-49
* `auv_nav/parsers/parse_koyo21rov.py` (Clocks; Koyo20; ParseTasks; SensorFrom): 25-62, 85-100, 103-210
* `auv_nav/parsers/parse_ntnu_dvl.py` (ParseTasks; VehicleLogs): 20-75, 87-88, 107-148
* `auv_nav/parsers/parse_ntnu_stereo.py` (Clocks; ImageParsers; Parse; ParseTasks; Parsers; StereoRun): 17-18, 31-45, 48-147, 149-169
* `auv_nav/parsers/parse_phins.py` (Clocks; ParseTasks; Parsers; Phins): 30-58, 62-97, 99-104, 107-134, 136-153, 155-181, 183-232
* `auv_nav/parsers/parse_rdi.py` (Clocks; ParseTasks; Parsers; RdiLog): 25-36, 38-44, 46-62, 66-140
* `auv_nav/parsers/parse_rosbag.py` (BagImages; Clocks; Correct; NavFile; ParseTasks; SensorFrom; UsblRos): 35-80, 118-147, 149-225, 228-311
* `auv_nav/parsers/parse_seaxerocks_images.py` (Clocks; ImageParsers; ParseTasks): 27-36, 101-241, 243-277, 280-298, 300-327, 334-406, 409-418
* `auv_nav/parsers/parse_sonardyne_mrt.py` (Clocks; MrtRun; ParseTasks; Sonardyne): 21-239, 242-294, 296-353, 355-416, 418-473, 476-554, 557-743, 746-866, 868-989, 991-1112, 1114-1235
* `auv_nav/parsers/parse_stereo_gopro.py` (Gopro; ParseTasks): 17-65
* `auv_nav/parsers/parse_tide_CTI.py` (Clocks; ImageParsers; ParseTasks): 23-34, 52-80
* `auv_nav/parsers/parse_usbl_dump.py` (Clocks; NocLogs; ParseTasks; Parsers; SensorFrom): 33-218
* `auv_nav/parsers/parse_voyis.py` (Clocks; ImageParsers; ParseTasks): 30-117
* `auv_nav/plot/plot_parse_data.py` (ParsePlots): 58-62, 82-124, 127-383
* `auv_nav/plot/plot_process_data.py` (FilterPlots; PathPlots; TimePlots): 25-51, 66-107, 139-243, 377-413, 417-490, 637-998, 1001-1137, 1140-1170, 1173-1295, 1298-1585
* `auv_nav/process.py` (CameraFiles; ConfLog; CsvFiles; CsvLoad; DeadReckoning; DrRun; Ekf; EkfPose; EkfStart; NavFile; NavHistory; Offset; Outputs; Payload; ProcessRun; RelativePose; SensorJson; SensorTables; Sync; UsblCsv): 42-46, 90, 103, 123-138, 159-375, 377-413, 421-545, 547-590, 592-1213, 1215-1296, 1299-1321, 1325-1432, 1435-1566, 1569-1596, 1598-2095
* `auv_nav/sensors.py` (BagLoad; Clocks; CsvFiles; CsvLoad; EkfPose; Interpolate; NavFile; ParseTasks; Parsers; Payload; Phins; Quaternion; RawExport; RdiLog; SensorFrom; SensorJson; SensorTables; SensorText; UsblRos; VehicleLogs): 24-39, 42-46, 49-60, 63-71, 96-98, 115-127, 129-168, 170-171, 173-181, 183-191, 207-222, 226-230, 232-250, 252-274, 276-343, 345-365, 367-400, 402-429, 431-482, 485-512, 514-519, 521-534, 536-543, 545-567, 572-599, 602-628, 630-649, 651-677, 679-683, 692-714, 716-754, 756-772, 774-801, 803-845, 848-860, 862-867, 869-885, 890-891, 900-904, 912-916, 926-950, 952-963, 965-980, 982-984, 987-1036, 1039-1087, 1089-1111, 1116-1165, 1170-1175, 1177-1184, 1206-1272, 1275-1276, 1294-1299, 1309-1331, 1333-1358, 1360-1450, 1452-1528, 1531-1541, 1543-1544, 1546-1557, 1559-1560, 1562-1570, 1572-1586, 1590-1631, 1713-1735, 1737-1748, 1750-1753, 1755-1783, 1785-1832, 1835-1847, 1849-1905, 1915-1921, 1923-1933, 1935-1946, 1948-1955, 1957-1983, 1985-2040, 2042-2052, 2054-2068, 2102-2122, 2125-2132, 2134-2147, 2149-2172
* `auv_nav/tools/body_to_inertial.py` (Rotation): 18, 21-58
* `auv_nav/tools/csv_tools.py` (CameraFiles; Convert; CsvFiles; CsvLoad; NavHistory; ProcessRun; RelativePose; SensorTables; SensorText; UsblCsv): 31-103, 106-233, 236-255, 259, 279-302, 318-343, 1481-1500
* `auv_nav/tools/displayable_path.py` (PathTree): 15-16, 18-25, 27-31, 33-66, 68-77, 86-107
* `auv_nav/tools/dvl_level_arm.py` (DeadReckoning; Rotation): 12-38, 41-69
* `auv_nav/tools/graph.py` (Graph): 8-14, 24-31, 33-48, 50-61, 72-86
* `auv_nav/tools/inertial_to_body.py` (Rotation): 19, 22-74
* `auv_nav/tools/interpolate.py` (Basic; CameraFiles; Interpolate): 20-27, 30-40, 43-114, 117-231, 234-272, 285-288, 291-304, 307-564
* `auv_nav/tools/latlon_wgs84.py` (HybisRun; KoyoRun): 14-29
* `auv_nav/tools/time_conversions.py` (Time): 17-31, 58-67, 78-79, 82-103
* `auv_nav/tools/transformations.py` (Arcball; CellMatrix; Projections; Quaternion; Transforms): 195-205, 220-243, 275-321, 364-403, 447-504, 579-632, 635-663, 850-878, 985-1046, 1048-1103, 1106-1114, 1117-1171, 1174-1188, 1191-1227, 1231-1260, 1263-1281, 1284-1296, 1299-1308, 1311-1346, 1370-1384, 1518-1533, 1536-1549, 1554-1562, 1566, 1568, 1571-1597, 1604-1640, 1643-1684, 1718-1731
* `correct_images/correct_images.py` (CameraYaml; Commands; ConfLog; CorrectCommand; LogFiles; RescaleCommand; RescaleYaml; TempFiles): 33-158, 161-273, 297-316, 318-351, 354-565
* `correct_images/corrections/attenuation.py` (Attenuation; AttnPlots; Images; ProcessImage): 22-79, 84-118, 154-166, 175-214, 220-311
* `correct_images/corrections/debayer.py` (Attenuation; ProcessImage): 17-55
* `correct_images/corrections/gamma.py` (Images; ProcessImage): 12-34
* `correct_images/corrections/manual_balance.py` (Images; ProcessImage): 36-57
* `correct_images/corrections/pixel_stat.py` (Images; ProcessImage): 40-47
* `correct_images/corrections/rescale.py` (Attenuation; NavChoice; RescaleCommand; RescaleYaml): 26-97, 100-209
* `correct_images/corrector.py` (Attenuation; AttnPlots; BagLoad; CameraSize; ColourRun; Correct; CorrectCommand; CorrectHistory; CorrectYaml; Images; NavChoice; NavHistory; ProcessImage; TempFiles): 47-60, 64-79, 154-157, 159-183, 187-247, 249-258, 262-277, 279-339, 341-410, 420-449, 456-488, 490-505, 508-679, 681-726, 730-1073, 1075-1114, 1116-1235, 1239-1425
* `correct_images/loaders/default.py` (Images): 20-60
* `correct_images/loaders/loader.py` (BagLoad): 6-20, 23-35, 41-54
* `correct_images/loaders/rosbag.py` (BagLoad): 22-55
* `correct_images/loaders/xviii.py` (Images): 14-61, 64-85
* `correct_images/parser.py` (CorrectCommand; CorrectYaml; RescaleYaml): 15-37, 39-97, 100-161, 186-188, 217-324, 326-406
* `correct_images/tools/curve_fitting.py` (Attenuation; ColourRun; Images): 21-39, 66-214
* `correct_images/tools/file_handlers.py` (Correct; CorrectHistory): 29-52, 55-66, 116-159
* `correct_images/tools/memmap.py` (ColourRun; Numerical; TempFiles): 20-35, 38-60, 66, 80-104
* `correct_images/tools/numerical.py` (ColourRun; Numerical): 26-29, 32-47, 49-55, 57-65, 68-111, 114-126, 129-159, 191-232, 279-330, 333-363
* `oplab/camera_models.py` (CalCrash; CalText; Cameras; VirtualLaser): 23-45, 72-167, 169-176, 178-190, 192-213, 215-222, 224-227, 234-264, 266-300, 302-312, 314-317, 319-334, 336-345
* `oplab/camera_system.py` (CameraSize; CameraSystem; CameraYaml): 31-73, 88-145, 150-204, 206-219, 221-250, 259-287, 304-316
* `oplab/console.py` (Basic; CalText; LogFiles; Parse): 24-25, 61-139, 214-236, 271-273, 278-303
* `oplab/filename_to_date.py` (CalImages; CameraSystem; CameraYaml; Time): 20-28, 31-42, 44-54, 56-142, 144-198, 217
* `oplab/folder_structure.py` (ConfLog; Folders; Gopro; Merge): 24-43, 47-65, 68-76, 79-80, 83-84, 87-88, 91-99, 122-135, 138-144
* `oplab/mission.py` (Clocks; Config; Correct; DivePlaces; ParseTasks; Time): 40-447, 458-509
* `oplab/vehicle.py` (Config; DivePlaces): 34-42, 47-211, 213-222
* `scripts/adjust_alr_to_biocam_time.py` (AlrTime): 34-51, 59-75, 77-128, 131-147, 150-159, 166-183, 186-248
* `scripts/compute_max_brightness.py` (BrightImages): 49-61
* `scripts/debayer_folder.py` (DebayerFolder): 49-68, 72-101
* `scripts/extract_rosbag_images.py` (BagImages): 23-37
* `scripts/find_images_with_artefacts.py` (BrightImages): 53-61, 65-69
* `scripts/generate_nav_file_for_squidle.py` (NavExport): 37-127, 151-159
* `scripts/image_acquisition_stats.py` (NavStats): 50-128
* `scripts/laser_plane_virtual_image_generator.py` (VirtualLaser): 60-71, 79-83, 101-121
* `scripts/merge_dataset_csv.py` (NavChoice): 8-21
* `scripts/pixel_stats_folder.py` (PixelStats): 19-25, 50-55, 58-79, 81-86, 89-126, 128-294
* `scripts/simplify_nav_file.py` (NavExport): 33-40, 43-155

Not modelled at all: `auv_cal/plot_points_and_planes.py`, `auv_cal/tests/test_cone_fitting.py`, `auv_cal/tests/test_laser_calibration.py`, `auv_cal/tests/test_plane_fitting.py`, `auv_nav/localisation/particle.py`, `auv_nav/localisation/particle_filter.py`, `auv_nav/parsers/load_matlab_file.py`, `auv_nav/parsers/parser_template.py`, `auv_nav/tests/test_ekf.py`, `auv_nav/tests/test_parsers.py`, `auv_nav/tests/test_sensors.py`, `auv_nav/tests/test_tools.py`, `correct_images/corrections/undistort.py`, `correct_images/loaders/depth_map.py`, `correct_images/tests/test_corrections.py`, `correct_images/tools/joblib_tqdm.py`, `oplab/tests/test_camera_system.py`, `oplab/tests/test_folder_structure.py`, `oplab/tests/test_oplab_parsers.py`.

## Axioms per theorem

Output of `#print axioms` for every theorem named in `MANIFEST.json`, grouped.

* ? (2 theorems): C289_cell, C289_refused
* none (20 theorems): C58_refit_false, C61_combined_raw_false, C71_camera_columns, C71_centre_columns, C77_manual_false, C84_particle_dvl_false, C84_particle_dvl_partial, C91_no_detection_false, C91_second_laser_false, C98_one_processor_false, C160_columns, C203_columns, C214_nav_ignores, C214_nav_false, C247_turned, C252_folder_false, C252_listing_false, C252_same_false, C280_no_root, C280_shows_false
* propext (85 theorems): C14_crash_false, C14_broken_time_false, C16_velocity_partial, C16_altitude_partial, C16_orientation_false, C21_existing_output_kept, C21_new_folder_parsed_partial, C26_others_in_order, C38_single_false, C39_folder_exists, C39_no_deadlock, C39_exclusive, C40_short_false, C41_information, C42_two_keywords_false, C53_last_dive_only_false, C55_runs, C61_nothing_removed, C61_koyo20rov, C61_acfr_partial, C61_acfr_vehicle_false, C61_acfr_stereo_false, C61_oplab_to_acfr_partial, C61_oplab_to_acfr_written, C72_second_camera_false, C76_grayscale_false, C76_colour_channels, C86_last_missing_false, C91_reread_partial, C103_ordered, C103_square_partial, C117_few_images, C126_every_match_false, C127_complete_false, C127_modification_false, C127_modification_partial, C128_no_rows, C128_timestamp_file_only_false, C130_manual_false, C131_complete, C133_choice, C133_no_default_false, C135_same_name_false, C147_acfr_empty, C155_nothing_lost, C156_job_false, C156_records_partial, C156_header_skipped, C160_time_from_row, C160_time_from_file, C162_increasing, C169_missing_false, C169_default_partial, C173_kept, C178_manual_order_partial, C178_time_first_partial, C201_undistort_iff, C209_pairs_partial, C209_pairs_false, C238_bag_false, C238_raw_false, C246_same_time_false, C246_parse_partial, C251_files_partial, C252_found_partial, C252_dives, C252_acfr, C252_found_false, C253_gaps_false, C253_mixed_false, C254_screen, C254_single_false, C254_folder, C254_folder_false, C255_mono_false, C256_stamp_partial, C256_stamp_false, C258_pictures_partial, C258_pictures_false, C259_plots_false, C268_mono_false, C268_detections_false, C268_laser_false, C268_stereo_false, C280_corner
* propext, Quot.sound (178 theorems): all others
* propext, Classical.choice, Quot.sound (1145 theorems): all others
