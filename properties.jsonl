{"id": "C01", "title": "Body to inertial rotation is a rigid rotation", "statement": "body_to_inertial(roll,pitch,yaw,x,y,z) applies yaw*pitch*roll (ZYX) rotations: it preserves the length of and the dot product between vectors, maps zero to zero, is linear, and with zero angles is the identity.", "quantifier": "all real roll, pitch, yaw angles in degrees and all vectors", "why_tests_cant": "angles and vectors range over a continuum; tests only sample a few attitudes", "anchors": ["src/auv_nav/tools/body_to_inertial.py:body_to_inertial"]}
{"id": "C02", "title": "inertial_to_body inverts body_to_inertial", "statement": "Rotating a vector from body to inertial and back with the same attitude returns the original vector.", "quantifier": "all attitudes and vectors", "why_tests_cant": "a wrong matrix entry vanishes on the attitudes tests usually pick (zero pitch or zero yaw)", "anchors": ["src/auv_nav/tools/inertial_to_body.py:inertial_to_body", "src/auv_nav/tools/body_to_inertial.py:body_to_inertial"]}
{"id": "C03", "title": "Scalar interpolation is exact, bounded and monotone", "statement": "interpolate(xq,xl,xu,yl,yu) returns the end value at either end of the bracket, never leaves the interval spanned by the end values for queries inside the bracket, is monotone in the query, reproduces every affine function exactly, and returns the lower value for a zero-length bracket instead of failing.", "quantifier": "all queries, brackets and end values", "why_tests_cant": "a continuum of inputs including degenerate brackets", "anchors": ["src/auv_nav/tools/interpolate.py:interpolate"]}
{"id": "C04", "title": "Heading interpolation takes the short way round", "statement": "interpolate_dvl returns, for headings in [0,360], a heading in [0,360] whose angular distance to each end heading is at most the (short-way) angular distance between the two, and which equals the end headings (mod 360) at the end times.", "quantifier": "all pairs of headings in [0,360], all query times inside the bracket", "why_tests_cant": "the wrap at north concerns a measure-thin set of inputs", "anchors": ["src/auv_nav/tools/interpolate.py:interpolate_dvl"]}
{"id": "C05", "title": "Camera pose interpolation brackets the query time", "statement": "interpolate_camera returns a pose interpolated between the two consecutive centre poses whose times bracket the query, for every query time within the span of the centre list, and yaw interpolates the short way round.", "quantifier": "all time-sorted centre lists and query times", "why_tests_cant": "indices at list boundaries and yaw wrap need all lengths and positions", "anchors": ["src/auv_nav/tools/interpolate.py:interpolate_camera"]}
{"id": "C06", "title": "Sensor list interpolation keeps exactly the covered measurements", "statement": "interpolate_sensor_list drops measurements before the first navigation time, keeps the others in order, never uses a bracket that wraps around the list, and every retained measurement is interpolated from the two navigation states bracketing its time.", "quantifier": "all sorted sensor lists and navigation lists with overlapping time ranges", "why_tests_cant": "depends on relative positions of two arbitrary-length time series", "anchors": ["src/auv_nav/tools/interpolate.py:interpolate_sensor_list"]}
{"id": "C07", "title": "DVL lever arm correction is the rigid-body velocity transfer", "statement": "The lever arm correction gives the velocity of the centre of the vehicle: if the centre moves with velocity v and the vehicle turns with rate w, the DVL mounted at r measures v + w x r, and correct_lever_arm gives back v. No rotation or no lever arm leaves the velocity unchanged, the correction is orthogonal to the lever arm and to the rate vector, and is linear in both.", "quantifier": "all angular rates, lever arms and velocities", "why_tests_cant": "algebraic identity over a continuum", "anchors": ["src/auv_nav/tools/dvl_level_arm.py:correct_lever_arm"]}
{"id": "C08", "title": "Angular speeds are defined for every usable orientation list", "statement": "compute_angular_speeds yields a rate for each index of an orientation list with at least two entries with distinct times, with the yaw rate computed across north using the wrapped difference.", "quantifier": "all orientation lists and indices", "why_tests_cant": "boundary indices of lists of every length", "anchors": ["src/auv_nav/tools/dvl_level_arm.py:compute_angular_speeds"]}
{"id": "C09", "title": "Dead reckoning integrates trapezoidally", "statement": "The dead-reckoned track is the running trapezoidal sum of inertial velocity over time: constant velocity gives displacement velocity x elapsed time, displacement over a sequence is the sum over its pieces, and reversing all velocities reverses the displacement.", "quantifier": "all time/velocity sequences", "why_tests_cant": "holds by induction over the sequence length", "anchors": ["src/auv_nav/localisation/dead_reckoning.py:dead_reckoning", "src/auv_nav/process.py"]}
{"id": "C10", "title": "Calendar time to epoch conversion is exact and monotone", "statement": "date_time_to_epoch maps later calendar date-times (same timezone) to larger epochs, shifting by one second/minute/hour/day shifts the epoch by exactly 1/60/3600/86400, a timezone offset of h hours subtracts 3600 h, invalid dates are rejected, and epoch_to_datetime / string_to_epoch invert it on UTC dates.", "quantifier": "all valid Gregorian date-times and offsets", "why_tests_cant": "leap years and month ends over all years", "anchors": ["src/auv_nav/tools/time_conversions.py:date_time_to_epoch", "src/auv_nav/tools/time_conversions.py:epoch_to_datetime", "src/auv_nav/tools/time_conversions.py:string_to_epoch"]}
{"id": "C11", "title": "Timezone names mean the same everywhere", "statement": "The hour offset used for a named timezone is the same in read_timezone and in the mission loader, and an unknown name is rejected, not silently mapped.", "quantifier": "all timezone strings", "why_tests_cant": "two independent string tables must agree on every key", "anchors": ["src/auv_nav/tools/time_conversions.py:read_timezone", "src/oplab/mission.py:TimeZoneEntry.load"]}
{"id": "C12", "title": "File name timestamps decode what they encode", "statement": "A camera file name whose date fields were printed according to the camera's filename_to_date pattern decodes to the epoch of exactly that date (including milliseconds and microseconds), irrespective of the other characters, and a file name of a different length is rejected.", "quantifier": "all patterns and all file names", "why_tests_cant": "patterns and names are arbitrary strings", "anchors": ["src/oplab/filename_to_date.py:FilenameToDate.string_to_epoch"]}
{"id": "C13", "title": "Interlaced navigation file is chronological", "statement": "parse_interlacer rewrites the JSON file with the same entries, and in non-decreasing epoch_timestamp order; entries with equal timestamps keep their relative order.", "quantifier": "all JSON lists", "why_tests_cant": "permutation/sortedness over lists of any length and timestamps of any magnitude", "anchors": ["src/auv_nav/parsers/parse_interlacer.py:parse_interlacer"]}
{"id": "C14", "title": "GAPS telegrams are paired correctly", "statement": "Each USBL position produced by the GAPS parser combines one valid target telegram with a ship position and a heading recorded before it and a ship position and a heading recorded after it.", "quantifier": "all sequences of telegram lines", "why_tests_cant": "a five-state machine driven by arbitrary line sequences", "anchors": ["src/auv_nav/parsers/parse_gaps.py:parse_gaps"]}
{"id": "C15", "title": "PHINS checksum rejects corrupted lines", "statement": "A PHINS line accepted by the parser stops being accepted if any single character of its checked part is replaced by another character.", "quantifier": "all lines, all positions, all replacement characters", "why_tests_cant": "all strings and corruption positions", "anchors": ["src/auv_nav/parsers/parse_phins.py:PhinsParser.line_is_valid"]}
{"id": "C16", "title": "Every RDI ensemble is exported", "statement": "The RDI parser yields one velocity (resp. altitude, orientation) record per ensemble of the log that carries a valid one, in order, including the last ensemble of the file.", "quantifier": "all logs", "why_tests_cant": "end-of-file behaviour for logs of every length", "anchors": ["src/auv_nav/parsers/parse_rdi.py:parse_rdi"]}
{"id": "C17", "title": "Stereo images are paired with their nearest neighbour within tolerance", "statement": "Each stereo record joins a left image with a right image whose timestamps differ by less than the tolerance, the right image being a nearest one in time; every left image with a right image within tolerance appears exactly once and in order; no image is used twice.", "quantifier": "all pairs of timestamp lists", "why_tests_cant": "matching over arbitrary lists", "anchors": ["src/auv_nav/parsers/parse_acfr_images.py:parse_acfr_images", "src/auv_nav/parsers/parse_biocam_images.py:parse_biocam_images"]}
{"id": "C18", "title": "Parsing a dive does not depend on dives parsed before", "statement": "The image records produced for a dive are a function of that dive alone: parsing other dives earlier in the same process does not change them.", "quantifier": "all sequences of dives parsed in one process", "why_tests_cant": "a history property: depends on hidden state carried between calls", "anchors": ["src/auv_nav/parsers/parse_acfr_images.py", "src/auv_nav/parsers/parse_biocam_images.py", "src/auv_nav/parsers/parse_ntnu_stereo.py", "src/auv_nav/parse.py:parse"]}
{"id": "C19", "title": "Tide correction covers the tide record", "statement": "Every depth (and USBL depth) whose time lies within the span of the tide record is corrected by the tide height linearly interpolated between the two bracketing tide samples; others are left unchanged.", "quantifier": "all tide records and depth series", "why_tests_cant": "boundary intervals of two arbitrary series", "anchors": ["src/auv_nav/parse.py:parse_single"]}
{"id": "C20", "title": "Merging dives keeps every measurement", "statement": "merge_json_files keeps the first dive's origin, refuses dives with a different origin position, drops no other entry, keeps the order dive by dive, and only changes image file names by prefixing the dive they belong to.", "quantifier": "all lists of dives", "why_tests_cant": "lists of any length", "anchors": ["src/auv_nav/parse.py:merge_json_files"]}
{"id": "C21", "title": "A dive is skipped by parse only if it was parsed before", "statement": "Without the force flag auv_nav parse skips a dive only if its navigation output already exists; with the force flag it never skips.", "quantifier": "all states of the output folder", "why_tests_cant": "all combinations of existing files", "anchors": ["src/auv_nav/parse.py:check_output_files_exist", "src/auv_nav/parse.py:parse_single"]}
{"id": "C22", "title": "Clock correction never places a frame after its reception", "statement": "The clock model fitted for BioCam predicts, for every frame used in the fit, a time not later than the CPU reception time of that frame, with equality for at least one frame, whatever slope the regression returns.", "quantifier": "all sequences of camera and CPU times and all regression outcomes", "why_tests_cant": "must hold for every data set", "anchors": ["src/auv_nav/parsers/parse_biocam_images.py:correct_timestamps"]}
{"id": "C23", "title": "ALR and Autosub logs yield strictly increasing times", "statement": "For a log with positive non-decreasing times the parser outputs strictly increasing times, one record per distinct time, the last record logged with that time.", "quantifier": "all logs", "why_tests_cant": "logs of all lengths with arbitrary repetition patterns", "anchors": ["src/auv_nav/parsers/parse_alr.py:parse_alr", "src/auv_nav/parsers/parse_autosub.py:parse_autosub"]}
{"id": "C24", "title": "Degree-minute positions decode with the right sign", "statement": "A position written as degrees, minutes and hemisphere is decoded to +/-(degrees + minutes/60), in both the GAPS and the USBL-dump parser.", "quantifier": "all positions in all hemispheres", "why_tests_cant": "sign handling in all four quadrants and all values", "anchors": ["src/auv_nav/parsers/parse_usbl_dump.py:parse_usbl_dump", "src/auv_nav/parsers/parse_gaps.py:parse_gaps"]}
{"id": "C25", "title": "ACFR pose files round trip", "statement": "Writing a dead-reckoning/camera track as an ACFR pose file and reading it back yields the same poses and the same origin.", "quantifier": "all tracks", "why_tests_cant": "every track and every attitude", "anchors": ["src/auv_nav/parsers/acfr_vehicle_pose.py", "src/auv_nav/parsers/acfr_stereo_pose.py"]}
{"id": "C26", "title": "Combined RAW writer emits complete DVL records", "statement": "Each RDI record in the combined RAW file uses a velocity together with the latest altitude and orientation received since the previous RDI record, and none is written while either is missing; other measurements are written one-to-one in order.", "quantifier": "all sequences of measurements", "why_tests_cant": "a small state machine driven by arbitrary sequences", "anchors": ["src/auv_nav/parsers/acfr_combined_raw.py:AcfrCombinedRawWriter.add"]}
{"id": "C27", "title": "Sensor JSON records round trip", "statement": "Exporting a sensor measurement in oplab format and loading it again reproduces all exported fields, for body velocity, orientation, depth, altitude, USBL, camera and tide measurements.", "quantifier": "all measurement values", "why_tests_cant": "for every value and each class", "anchors": ["src/auv_nav/sensors.py"]}
{"id": "C28", "title": "USBL filter keeps only consistent fixes", "statement": "usbl_filter returns, with depth/time and distance filters active, first the fixes at least one second inside the depth record's time span whose depth agrees with the interpolated depth sensor, then those of them that also agree with the fixes up to two places before and after, both in their original order; two fixes of a vehicle within its maximum speed and their stated uncertainties always agree.", "quantifier": "all USBL and depth lists and thresholds", "why_tests_cant": "all lists and neighbourhoods", "anchors": ["src/auv_nav/localisation/usbl_filter.py:usbl_filter"]}
{"id": "C29", "title": "EKF covariance stays a covariance", "statement": "After any sequence of predictions and corrections the EKF covariance is symmetric positive semidefinite, so reported standard deviations are square roots of non-negative numbers.", "quantifier": "all measurement sequences, all noise settings", "why_tests_cant": "an invariant over unbounded executions", "anchors": ["src/auv_nav/localisation/ekf.py:EkfImpl.predict", "src/auv_nav/localisation/ekf.py:EkfImpl.correct"]}
{"id": "C30", "title": "EKF Jacobian is the derivative of the motion model", "statement": "The Jacobian used for covariance propagation equals the matrix of partial derivatives of the EKF motion model at every state away from pitch singularity.", "quantifier": "all states and time steps", "why_tests_cant": "144 entries over a continuum of states", "anchors": ["src/auv_nav/localisation/ekf.py:EkfImpl.compute_jacobian", "src/auv_nav/localisation/ekf.py:EkfImpl.compute_transfer_function"]}
{"id": "C31", "title": "EKF angles are wrapped", "statement": "Angles in EKF states and innovations are always reduced to [-pi, pi] by a multiple of 2 pi.", "quantifier": "all angles", "why_tests_cant": "arbitrarily many turns", "anchors": ["src/auv_nav/localisation/ekf.py:EkfImpl.clamp_rotation"]}
{"id": "C32", "title": "EKF outlier gate", "statement": "A measurement influences the EKF state if and only if its Mahalanobis distance is below the threshold; a rejected measurement leaves state and covariance unchanged and is reported.", "quantifier": "all states, measurements, thresholds", "why_tests_cant": "all executions", "anchors": ["src/auv_nav/localisation/ekf.py:EkfImpl.check_mahalanobis_distance", "src/auv_nav/localisation/ekf.py:EkfImpl.correct"]}
{"id": "C33", "title": "EKF visits every timestamp once and in order", "statement": "The EKF processes requested timestamps and measurements in time order: state times are non-decreasing, every requested timestamp after the start and not after the end has a state, measurements at or before the start are skipped, and the loop terminates.", "quantifier": "all sorted input lists", "why_tests_cant": "a five-way merge of unbounded lists", "anchors": ["src/auv_nav/localisation/ekf.py:ExtendedKalmanFilter.run"]}
{"id": "C34", "title": "EKF measurement report adds up", "statement": "For every sensor, reported total = valid + dropped = number of measurements offered, and dropped = number of rejected measurements recorded.", "quantifier": "all executions", "why_tests_cant": "an accounting invariant over unbounded runs", "anchors": ["src/auv_nav/localisation/ekf.py:MeasurementReport.add"]}
{"id": "C35", "title": "EKF camera poses keep the image they belong to", "statement": "update_camera_list returns the cameras whose time has an EKF state, in order, each with the pose of that state and its own file name; no camera gets another image's pose.", "quantifier": "all camera lists and EKF outputs", "why_tests_cant": "merge-join over arbitrary lists, with duplicates", "anchors": ["src/auv_nav/localisation/ekf.py:update_camera_list"]}
{"id": "C36", "title": "Particle weights are a probability distribution", "statement": "After a measurement update the particle weights are non-negative and sum to one; particles are ordered by weight; the number of particles never changes.", "quantifier": "all particle sets and likelihoods", "why_tests_cant": "invariant over unbounded runs", "anchors": ["src/auv_nav/localisation/pf.py:ParticleFilter"]}
{"id": "C37", "title": "Particle resampling draws proportionally", "statement": "Systematic resampling returns as many particles as before, all drawn from the weighted set, in order, each particle being drawn floor(N w) or ceil(N w) times for every random offset, and afterwards weights are equal.", "quantifier": "all weights and offsets", "why_tests_cant": "all weights and random offsets", "anchors": ["src/auv_nav/localisation/pf.py:ParticleFilter.resample"]}
{"id": "C38", "title": "CSV and covariance files stay aligned under crashes", "statement": "At any crash point while write_csv runs, the CSV holds the header and the first k rows and the covariance file the header and first k or k+1 rows; on completion both hold all rows in order.", "quantifier": "all crash points and lists", "why_tests_cant": "every crash point of an unbounded loop", "anchors": ["src/auv_nav/tools/csv_tools.py:write_csv"]}
{"id": "C39", "title": "CSV output is independent of the thread schedule", "statement": "When several CSV files are written by concurrent threads the final content of each file is the same for every interleaving, and creating the shared folder never fails.", "quantifier": "all interleavings of the writer threads", "why_tests_cant": "schedules", "anchors": ["src/auv_nav/tools/csv_tools.py:write_csv", "src/auv_nav/process.py:process"]}
{"id": "C40", "title": "load_states returns the requested image range", "statement": "load_states returns exactly the rows from the first row with the start image to the first row with the end image (or to the end of file), each with its own pose and covariance.", "quantifier": "all CSV files and identifiers", "why_tests_cant": "all row sequences", "anchors": ["src/auv_nav/tools/csv_tools.py:load_states"]}
{"id": "C41", "title": "SLAM++ information rows are the reordered upper triangle", "statement": "spp_csv writes for each camera the 21 upper-triangular entries of the 6x6 pose block of the information matrix with the rotations in yaw,pitch,roll order.", "quantifier": "all information matrices", "why_tests_cant": "all matrices", "anchors": ["src/auv_nav/tools/csv_tools.py:spp_csv"]}
{"id": "C42", "title": "Folder translation is consistent", "statement": "get_raw_folder, get_processed_folder and get_config_folder differ only in the folder keyword, are idempotent, and translate back and forth without loss for paths containing one keyword.", "quantifier": "all paths", "why_tests_cant": "all paths", "anchors": ["src/oplab/folder_structure.py"]}
{"id": "C43", "title": "vehicle.yaml sensor offsets round trip", "statement": "Writing a sensor offset and loading it again gives the same offset; the old and the new file formats load to the same positions.", "quantifier": "all offsets", "why_tests_cant": "all values", "anchors": ["src/oplab/vehicle.py:SensorOffset"]}
{"id": "C44", "title": "mission.yaml round trips", "statement": "Writing a loaded mission and loading the result yields the same mission settings.", "quantifier": "all missions", "why_tests_cant": "all configurations", "anchors": ["src/oplab/mission.py:Mission"]}
{"id": "C45", "title": "Running mean and variance are exact", "statement": "running_mean_std, mean_std_array and RunningMeanStd return the arithmetic mean and population variance of the pixel values they are given (in exact arithmetic), and the variance is never negative.", "quantifier": "all image sequences", "why_tests_cant": "induction over sequences of any length", "anchors": ["src/correct_images/tools/numerical.py:running_mean_std", "src/correct_images/tools/numerical.py:mean_std_array", "src/correct_images/tools/numerical.py:RunningMeanStd"]}
{"id": "C46", "title": "Ignored and clipped pixels do not bias the mean", "statement": "With ignore_zeroes, the mean is that of the non-zero values; saturated values are excluded from RunningMeanStd's mean.", "quantifier": "all sequences", "why_tests_cant": "sequences of any length and pattern of zeros", "anchors": ["src/correct_images/tools/numerical.py:running_mean_std", "src/correct_images/tools/numerical.py:RunningMeanStd.compute"]}
{"id": "C47", "title": "Trimmed mean lies within the data", "statement": "The trimmed mean used for 'mean_trimmed' smoothing is the mean of the central part of the sorted values and so lies between the minimum and the maximum of the pixel's values.", "quantifier": "all image stacks and trim ratios", "why_tests_cant": "all stacks", "anchors": ["src/correct_images/tools/numerical.py:calc_mean_and_std_trimmed", "src/correct_images/tools/numerical.py:image_mean_std_trimmed"]}
{"id": "C48", "title": "XVIII raw images decode losslessly", "statement": "The XVIII loader uses every byte of the raw file exactly once: two different raw files of the expected size decode to different images, each pixel below 2^24, and each pixel equals the 24-bit big-endian field of the byte-swapped stream.", "quantifier": "all raw files and image sizes with width a multiple of four", "why_tests_cant": "all byte contents and sizes", "anchors": ["src/correct_images/loaders/xviii.py:load_xviii_bayer_from_binary"]}
{"id": "C49", "title": "Loaded image intensities are unitary", "statement": "The default loader returns intensities in [0,1) for every stored integer image and bit depth, monotone in the stored value.", "quantifier": "all pixel values, storage and source bit depths", "why_tests_cant": "all values and bit depths", "anchors": ["src/correct_images/loaders/default.py:loader"]}
{"id": "C50", "title": "Attenuation correction removes altitude dependence", "statement": "If a pixel's intensity follows the fitted attenuation curve up to a reflectance factor, the corrected intensity is that factor times the gain irrespective of altitude; at the target altitude the correction is the identity; for parameters within the fitting bounds no division by zero occurs.", "quantifier": "all parameters in bounds, altitudes, intensities", "why_tests_cant": "continuum of values", "anchors": ["src/correct_images/corrections/attenuation.py:attenuation_correct", "src/correct_images/corrections/attenuation.py:calculate_correction_gains", "src/correct_images/tools/curve_fitting.py:curve_fitting"]}
{"id": "C51", "title": "Corrected images are valid 8-bit images", "statement": "Colour-corrected output pixels are integers in 0..255 for all inputs, normalised intensities are in [0,1] and brighter input pixels never come out darker.", "quantifier": "all images and settings with positive standard deviation", "why_tests_cant": "continuum of values", "anchors": ["src/correct_images/corrections/pixel_stat.py:pixel_stat", "src/correct_images/corrections/gamma.py:gamma_correct", "src/correct_images/corrector.py:Corrector.process_image"]}
{"id": "C52", "title": "Images and altitudes stay aligned", "statement": "After selecting images, the i-th altitude is the altitude of the i-th image, every selected image exists, has an altitude strictly within the configured limits, and every such image is selected.", "quantifier": "all navigation tables and file systems", "why_tests_cant": "all tables", "anchors": ["src/correct_images/corrector.py:Corrector.get_imagelist"]}
{"id": "C53", "title": "Multi-dive parsing uses all dives", "statement": "When attenuation parameters are computed from several dives, the images of all dives are used.", "quantifier": "all lists of dives", "why_tests_cant": "a history property over the list of dives", "anchors": ["src/correct_images/corrector.py:Corrector.parse", "src/correct_images/corrector.py:Corrector.get_imagelist"]}
{"id": "C54", "title": "Images without depth map are dropped consistently", "statement": "In depth_map mode the images left are exactly those with a depth map, the i-th image being paired with its own depth map.", "quantifier": "all image lists", "why_tests_cant": "all patterns of missing maps", "anchors": ["src/correct_images/corrector.py:Corrector.get_altitude_and_depth_maps"]}
{"id": "C55", "title": "Existing correction results are protected", "statement": "Without the force flag correct_images never overwrites existing parameters (parse) or corrected images (process).", "quantifier": "all folder states", "why_tests_cant": "all folder states", "anchors": ["src/correct_images/corrector.py:Corrector.create_output_directories"]}
{"id": "C56", "title": "Altitude bins are computed independently of scheduling", "statement": "Each image falls in at most one altitude bin, determined by its altitude, and the table of bin averages is the same for every schedule of the parallel bin computations.", "quantifier": "all altitude lists and schedules", "why_tests_cant": "all schedules", "anchors": ["src/correct_images/corrector.py:Corrector.generate_attenuation_correction_parameters", "src/correct_images/corrector.py:Corrector.compute_distance_bin"]}
{"id": "C57", "title": "User image lists select by name", "statement": "trim_csv_files keeps exactly the navigation rows whose image name is in the user's list, in order.", "quantifier": "all tables and lists", "why_tests_cant": "all tables", "anchors": ["src/correct_images/tools/file_handlers.py:trim_csv_files"]}
{"id": "C58", "title": "RANSAC returns the inliers of the best plane", "statement": "run_ransac returns the inlier set with the most points among all sampled planes, and the plane refitted to those inliers.", "quantifier": "all point clouds and random samples", "why_tests_cant": "all random choices", "anchors": ["src/auv_cal/ransac.py:run_ransac"]}
{"id": "C59", "title": "Plane geometry is consistent", "statement": "Plane.distance is the Euclidean point-plane distance, independent of the scaling of the coefficients, and ray_intersection returns a point on both plane and ray or None exactly for parallel rays.", "quantifier": "all planes, points, rays", "why_tests_cant": "continuum", "anchors": ["src/auv_cal/plane_fitting.py:Plane"]}
{"id": "C60", "title": "Euler angles reproduce the rotation matrix", "statement": "The Euler angles extracted from a rotation matrix reproduce that rotation matrix.", "quantifier": "all rotation matrices", "why_tests_cant": "continuum incl. gimbal lock", "anchors": ["src/auv_cal/euler_angles_from_rotation_matrix.py:euler_angles_from_rotation_matrix"]}
{"id": "C61", "title": "Conversion never overwrites without force", "statement": "auv_nav convert does not overwrite existing converted outputs unless the force flag is given.", "quantifier": "all folder states", "why_tests_cant": "all folder states and formats", "anchors": ["src/auv_nav/convert.py"]}
{"id": "C62", "title": "The parse pool always terminates", "statement": "auv_nav parse terminates with results in the order the sensors were submitted, for every completion order of the workers, also when one parser aborts.", "quantifier": "all schedules and abort patterns", "why_tests_cant": "schedules", "anchors": ["src/auv_nav/parse.py:parse_single"]}
{"id": "C63", "title": "Output images are verified after writing", "statement": "write_output_image attempts at most five writes, stops at the first one that reads back, and reports success after retries without failing.", "quantifier": "all patterns of transient write failures", "why_tests_cant": "all failure patterns", "anchors": ["src/correct_images/tools/file_handlers.py:write_output_image"]}
{"id": "C64", "title": "Bag camera clock offset", "statement": "For cameras stored in bag files, the clock offset used by image correction to find an image's pose is the same offset (time zone in seconds plus configured offset) that navigation applied when it time-stamped the images.", "quantifier": "all time zones and offsets", "why_tests_cant": "two programs must agree for all configurations", "anchors": ["src/correct_images/corrector.py:load_configuration", "src/auv_nav/parsers"]}
{"id": "C65", "title": "Malformed GAPS time telegrams do not give fixes a wrong time", "statement": "A USBL fix parsed from a GAPS log carries the time of the telegram it came from; a line whose time cannot be read contributes no fix.", "quantifier": "all log contents", "why_tests_cant": "arbitrary corrupted lines", "anchors": ["src/auv_nav/parsers/parse_gaps.py"]}
{"id": "C66", "title": "Records inside the time window are used, all and only, in order", "statement": "Processing uses exactly the exported records whose time lies inside the requested window, in file order, each in the list of its own sensor.", "quantifier": "all navigation files and time windows", "why_tests_cant": "arbitrary mixtures of record kinds", "anchors": ["src/auv_nav/process.py:process"]}
{"id": "C67", "title": "EKF and dead reckoning share one motion model", "statement": "Predicting over a time step moves the EKF position by the step times the body velocity rotated by the same rotation dead reckoning uses, keeps velocities and turn rates, and turns the vehicle by the Euler-angle rates.", "quantifier": "all states and time steps away from the pitch singularity", "why_tests_cant": "two implementations must agree over a continuum", "anchors": ["src/auv_nav/localisation/ekf.py:EkfImpl.compute_transfer_function", "src/auv_nav/tools/body_to_inertial.py"]}
{"id": "C68", "title": "Smoothing yields covariances that are no larger", "statement": "Every smoothed covariance is symmetric positive semidefinite and in no direction larger than the filtered one.", "quantifier": "all runs with any noise settings", "why_tests_cant": "an invariant over unbounded backward passes", "anchors": ["src/auv_nav/localisation/ekf.py:EkfImpl.smooth"]}
{"id": "C69", "title": "The particle filter uses every fix taken during dead reckoning", "statement": "The particle filter's trajectory has one point for every dead reckoning entry and one for every USBL fix taken during dead reckoning, in order of time, and each of these fixes updates the particles.", "quantifier": "all dead reckoning and USBL series, all random draws", "why_tests_cant": "unbounded series and all interleavings of two sensors", "anchors": ["src/auv_nav/localisation/pf.py:run_particle_filter", "src/auv_nav/localisation/pf.py:get_prior"]}
{"id": "C70", "title": "Particles move as dead reckoning does", "statement": "Without noise, a particle moves by the time step times the body velocity rotated to the inertial frame, and takes the attitude, velocity, depth and altitude of the dead reckoning entry.", "quantifier": "all movements, time steps and states", "why_tests_cant": "two implementations must agree over a continuum", "anchors": ["src/auv_nav/localisation/pf.py:DeadReckoningMovementModel"]}
{"id": "C71", "title": "Exported poses can be read back", "statement": "Every attribute of a camera or vehicle pose written to a CSV file is found again when the row is read by column name.", "quantifier": "all poses", "why_tests_cant": "26 columns must agree between three functions for every value", "anchors": ["src/auv_nav/sensors.py:Camera", "src/auv_nav/sensors.py:SyncedOrientationBodyVelocity"]}
{"id": "C72", "title": "SLAM++ edges are relative poses", "statement": "Every line of a SLAM++ file describes the difference between the poses of two consecutive images of that camera, and the node numbers start at zero.", "quantifier": "all camera lists", "why_tests_cant": "all lists of any length", "anchors": ["src/auv_nav/process.py:process", "src/auv_nav/tools/csv_tools.py:spp_csv"]}
{"id": "C73", "title": "Folder listing and removal", "statement": "get_file_list returns exactly the files below a folder at any depth; remove_directory leaves nothing below the folder whatever its contents.", "quantifier": "all folder trees", "why_tests_cant": "Folder trees have unbounded depth and width.", "anchors": ["src/oplab/folder_structure.py:get_file_list", "src/correct_images/tools/file_handlers.py"]}
{"id": "C74", "title": "Median smoothing is a median", "statement": "The 'median' smoothing returns for each pixel a value with at least half the values on either side of it, and within the range of the values.", "quantifier": "all image stacks", "why_tests_cant": "Sortedness and counting arguments over stacks of any size.", "anchors": ["src/correct_images/tools/numerical.py:median_array"]}
{"id": "C75", "title": "RANSAC mean is the mean of the best consensus set", "statement": "The RANSAC mean of a pixel is the mean of the values within the tolerance of a sampled candidate, for the candidate with the largest number of such values.", "quantifier": "all pixel values and random draws", "why_tests_cant": "Depends on every possible sequence of random draws.", "anchors": ["src/correct_images/tools/numerical.py"]}
{"id": "C76", "title": "Manual balance applies the configured affine map", "statement": "With manual_balance each colour pixel is the configured matrix applied to the pixel minus the offsets; a monochrome image uses the red gain and offset.", "quantifier": "all pixels, matrices, offsets and camera types", "why_tests_cant": "Algebraic identity over all values; camera type branches.", "anchors": ["src/correct_images/corrections/manual_balance.py", "src/correct_images/corrector.py:process_image"]}
{"id": "C77", "title": "filelist.csv lists exactly the corrected images with their navigation", "statement": "After a correction run the file list written next to the corrected images has one row for every corrected image, in the order of the navigation table, and each row names the output file produced from that row's own raw image.", "quantifier": "every navigation table, every set of processed images and file names, both correction methods", "why_tests_cant": "the failure cases depend on which images fail and on name collisions between folders; tests use a handful of distinct names", "anchors": ["src/correct_images/corrector.py:process_correction"]}
{"id": "C78", "title": "Only images on the user's list are corrected", "statement": "When the configuration names a file with a list of images, a correction run touches no image that is not on that list.", "quantifier": "every navigation table, user list and correction method", "why_tests_cant": "a test fixes one list and one method; the claim is about all of them", "anchors": ["src/correct_images/corrector.py:get_imagelist", "src/correct_images/tools/file_handlers.py:trim_csv_files"]}
{"id": "C79", "title": "Navigation entries hold the measurements at their time", "statement": "Processing a dive gives one navigation entry for each orientation measured while the DVL works, in order. Its velocity (before the lever arm and rotation), altitude, depth and their standard deviations are the linearly interpolated measurements of the other sensors at that time, and the horizontal positions are dead reckoned from the velocities, starting at (0, 0).", "quantifier": "all orientation, velocity, altitude and depth records, of any length and rate", "why_tests_cant": "The indices of four records advance together in one loop; whether each bracket is right depends on the whole interleaving of the time stamps.", "anchors": ["src/auv_nav/process.py:L740-982"]}
{"id": "C80", "title": "Seafloor depth is depth plus altitude", "statement": "Every altitude measurement is given a seafloor depth: the vehicle depth at its time plus the altitude.", "quantifier": "all depth and altitude records", "why_tests_cant": "The search index and the backward fill depend on how the two records interleave.", "anchors": ["src/auv_nav/process.py:L640-667"]}
{"id": "C81", "title": "Inertial velocities get the attitude at their time", "statement": "Every inertial velocity measured while there are orientations gets the attitude interpolated between the orientations before and after it, headings the short way round.", "quantifier": "all orientation records and inertial velocity times", "why_tests_cant": "Depends on the interleaving of the two records.", "anchors": ["src/auv_nav/process.py:L992-1095"]}
{"id": "C82", "title": "The track agrees with the USBL fixes on average", "statement": "When there are USBL fixes, the dead-reckoned track is moved by one constant vector so that, over the fixes used, the mean of the track's positions at the fix times equals the mean of the fixes; the fixes used are those during the track, and a track that differs from the fixes by a constant ends exactly on them.", "quantifier": "all tracks with increasing times and all USBL records", "why_tests_cant": "Depends on the interleaving of the two records and on every position.", "anchors": ["src/auv_nav/localisation/usbl_offset.py:usbl_offset", "src/auv_nav/process.py:L1096-1155"]}
{"id": "C83", "title": "Every payload measurement is located by every solution", "statement": "For every payload of the vehicle, processing writes one file per navigation solution that is switched on, in that solution's folder, holding that payload's measurements with positions from that solution and that payload's place on the vehicle.", "quantifier": "all sets of payload names and all combinations of filters switched on and run", "why_tests_cant": "Names are matched by substring; whether one name interferes with another depends on the whole set of names.", "anchors": ["src/auv_nav/process.py:L508-545", "src/auv_nav/process.py:L1569-1596", "src/auv_nav/process.py:L1789-1825"]}
{"id": "C84", "title": "Latitude and longitude agree with northings and eastings", "statement": "In every navigation solution, the latitude and longitude of a pose are the geographic position of its northings and eastings.", "quantifier": "all tracks, offsets and solutions", "why_tests_cant": "Must hold for every pose of every run, with and without USBL fixes.", "anchors": ["src/auv_nav/process.py:L1098-1213", "src/auv_nav/localisation/ekf.py:save_ekf_to_list"]}
{"id": "C85", "title": "EKF poses have the altitude at their time", "statement": "Every EKF pose gets an altitude, interpolated between the dead-reckoning entries before and after its time.", "quantifier": "all dead-reckoning records and all EKF runs", "why_tests_cant": "The search index depends on the whole interleaving of times; the last EKF state may lie at the end of the record.", "anchors": ["src/auv_nav/localisation/ekf.py:save_ekf_to_list", "src/auv_nav/localisation/ekf.py:run"]}
{"id": "C86", "title": "The EKF is run for the requested images and payloads", "statement": "The EKF is asked for exactly the times of the images and payload measurements, each once and in order; a run for relative uncertainty uses exactly the images from the first to the last named, and stops if either is missing or they are in the wrong order.", "quantifier": "all image and payload records, all image names", "why_tests_cant": "Must hold for every record and every pair of names.", "anchors": ["src/auv_nav/process.py:L1356-1403"]}
{"id": "C87", "title": "The detected laser line is the brightest window of a column", "statement": "In every examined column of an image at most one laser point is reported; one is reported exactly if a window of the chosen height within the chosen rows is bright enough, and it lies at the centre of brightness of the brightest window.", "quantifier": "all images, window heights, thresholds, row limits and numbers of columns", "why_tests_cant": "The search runs over every window of every column; an error at one end of the search range affects only some images.", "anchors": ["src/auv_cal/laser_calibrator.py:findLaserInImage"]}
{"id": "C88", "title": "Only images taken together are triangulated", "statement": "The laser calibration processes pairs of images of the two cameras taken within 50 ms of each other, each left image with the nearest right image, and spreads its choice over the whole recording when there are many.", "quantifier": "all recordings of the two cameras", "why_tests_cant": "Must hold for every combination of missing images and every number of images.", "anchors": ["src/auv_cal/laser_calibrator.py:LaserCalibrator.cal"]}
{"id": "C89", "title": "Laser points are triangulated column by column", "statement": "Two detections are triangulated exactly if they are in the same column of the two images; points behind the camera are left out and counted.", "quantifier": "all pairs of lists of detections", "why_tests_cant": "Two lists are merged with one moving index; every interleaving of columns must work.", "anchors": ["src/auv_cal/laser_calibrator.py:LaserCalibrator.pointcloud_from_peaks"]}
{"id": "C90", "title": "Sampling by depth keeps what fits", "statement": "The sampled cloud consists of points of the cloud between the depth limits; each depth bin holds all its points or the maximum number, whichever is smaller.", "quantifier": "all clouds, limits, numbers of bins and maxima", "why_tests_cant": "Must hold for every order in which points are drawn.", "anchors": ["src/auv_cal/laser_calibrator.py:LaserCalibrator.z_stratified_sampling"]}
{"id": "C91", "title": "Detections can be reused", "statement": "A second run on the same images returns the detections of the first run without repeating the search.", "quantifier": "all detections, including none, and all settings", "why_tests_cant": "Depends on the history of runs and settings.", "anchors": ["src/auv_cal/laser_calibrator.py:get_laser_pixels", "src/auv_cal/laser_calibrator.py:find_laser_write_file"]}
{"id": "C92", "title": "The uncertainty of a laser plane comes from its own points", "statement": "If the calibration ends, it reports the requested number of planes for each laser; each has first coefficient one and contains three points of that laser's cloud that are far enough apart.", "quantifier": "all clouds and all sequences of random draws", "why_tests_cant": "Random draws: no test can try all sequences.", "anchors": ["src/auv_cal/laser_calibrator.py:LaserCalibrator.fit_and_save"]}
{"id": "C93", "title": "Planes and angles of the laser calibration are geometrically right", "statement": "A plane through three points contains them; a plane built from angles and a point contains the point and its normal has these angles; the angle of a plane does not depend on the sign or length of its normal; the change of axes keeps distances and handedness.", "quantifier": "all points, angles and normals", "why_tests_cant": "Statements over all real coordinates.", "anchors": ["src/auv_cal/laser_calibrator.py:plane_through_3_points", "src/auv_cal/laser_calibrator.py:build_plane", "src/auv_cal/laser_calibrator.py:get_angle", "src/auv_cal/laser_calibrator.py:get_angles", "src/auv_cal/laser_calibrator.py:opencv_to_ned"]}
{"id": "C94", "title": "Triangulation returns the point that was seen", "statement": "If two cameras see a point at two pixels, triangulating the pixels returns the point.", "quantifier": "all pairs of cameras and all points that their pixels determine", "why_tests_cant": "Statement over all camera matrices and points.", "anchors": ["src/auv_cal/laser_calibrator.py:triangulate_lst", "src/auv_cal/laser_calibrator.py:triangulate_dlt"]}
{"id": "C95", "title": "Fitted attenuation curves describe light that fades with distance", "statement": "The attenuation parameters of every pixel describe a positive brightness that does not increase with distance; a pixel without usable measurements gets parameters that leave images unchanged.", "quantifier": "all altitudes and intensities of a pixel in the bins, all results of an optimiser that respects its bounds", "why_tests_cant": "The start values are computed from two of the pairs; every arrangement of bins must give admissible values.", "anchors": ["src/correct_images/tools/curve_fitting.py:curve_fitting"]}
{"id": "C96", "title": "Intensities are fitted against the altitude of their own bin", "statement": "The pairs used in the fit of a pixel are an altitude and an intensity of the same bin.", "quantifier": "all altitudes and intensities, finite or not", "why_tests_cant": "The two lists are filtered separately; every pattern of missing values must be considered.", "anchors": ["src/correct_images/tools/curve_fitting.py:curve_fitting"]}
{"id": "C97", "title": "Attenuation parameters are stored at the pixel they belong to", "statement": "The parameters at a row and column of a channel are those fitted to the distances and intensities at that row and column of the bins.", "quantifier": "all image sizes, numbers of bins and pixels", "why_tests_cant": "Index arithmetic over all sizes and positions.", "anchors": ["src/correct_images/corrections/attenuation.py:calculate_attenuation_parameters"]}
{"id": "C98", "title": "The attenuation fit runs on every machine", "statement": "The number of parallel jobs is at least one for any memory, image size and number of processors.", "quantifier": "all amounts of memory, image sizes, numbers of images and processors", "why_tests_cant": "Depends on the machine; tests run on one.", "anchors": ["src/correct_images/corrections/attenuation.py:calculate_attenuation_parameters"]}
{"id": "C99", "title": "Images are rescaled with their own altitude", "statement": "Rescaling a folder uses for each image the altitude listed for that image; images without one are skipped.", "quantifier": "all lists of image names and altitudes", "why_tests_cant": "Depends on all pairs of names in the list.", "anchors": ["src/correct_images/corrections/rescale.py:rescale_images"]}
{"id": "C100", "title": "Rescaled images have the requested pixel size", "statement": "Without keeping the size, a rescaled image has as many pixels of the target size as fit in the seafloor it covers. Keeping the size, images that are too coarse keep their middle at the target pixel size, up to one pixel, and images that are too fine are reduced to the target and enlarged again; in both cases the size stays the same. Unsupported methods end the program.", "quantifier": "all image sizes, altitudes, focal lengths, target pixel sizes and methods", "why_tests_cant": "Rounding must be right for all sizes.", "anchors": ["src/correct_images/corrections/rescale.py:rescale"]}
{"id": "C101", "title": "Debayering keeps intensities in the unit interval", "statement": "Debayered intensities are at least 0 and less than 1; an image of one intensity keeps it within 2/65536 and never gets brighter; each Bayer pattern uses its own conversion and others end the program.", "quantifier": "all images and patterns", "why_tests_cant": "Rounding and clipping for all intensities.", "anchors": ["src/correct_images/corrections/debayer.py:debayer"]}
{"id": "C102", "title": "The calibration pattern has the geometry of the board", "statement": "A board has one point for each row and column, listed row by row, at the spacing given; in asymmetric grids odd rows are shifted by half of the spacing of the points in a row. No two points coincide.", "quantifier": "all patterns, numbers of rows and columns and spacings", "why_tests_cant": "The points are written into an array by index; every index must be written once for all sizes.", "anchors": ["src/auv_cal/camera_calibrator.py:mk_object_points"]}
{"id": "C103", "title": "The configured board is looked for", "statement": "The rows and columns in the configuration are those of the board that is looked for; for chessboards and asymmetric grids it does not matter which side is called rows.", "quantifier": "all patterns and board sizes", "why_tests_cant": "Concerns all combinations of pattern and sizes.", "anchors": ["src/auv_cal/camera_calibrator.py:Calibrator.__init__", "src/auv_cal/camera_calibrator.py:_get_circles", "src/auv_cal/calibration.py:calibrate_mono"]}
{"id": "C104", "title": "Views used for a calibration differ from each other", "statement": "The views used are some of the detections, in order, starting with the first. The descriptions of any two of them differ by more than 0.12, and every detection left out is within 0.12 of one that is used.", "quantifier": "all sequences of detections", "why_tests_cant": "Each decision depends on all views accepted before.", "anchors": ["src/auv_cal/camera_calibrator.py:is_good_sample", "src/auv_cal/camera_calibrator.py:collect_corners"]}
{"id": "C105", "title": "A calibration repeated from saved detections uses the same views", "statement": "The saved file contains every detection with its image; a calibration from the file uses the same views as the calibration that wrote it.", "quantifier": "all sequences of images with and without detections", "why_tests_cant": "Two code paths must agree for every sequence.", "anchors": ["src/auv_cal/camera_calibrator.py:collect_corners", "src/auv_cal/camera_calibrator.py:cal_from_json"]}
{"id": "C106", "title": "The best monocular calibration is kept", "statement": "At most five calibrations are computed. Each uses the views of the one before whose error is within the average plus two standard deviations, or 0.25; the result is the one with the smallest average error, uses at least one view, and is not worse than the calibration with all views.", "quantifier": "all sets of views and all solvers whose average error is not below all errors of the views", "why_tests_cant": "Depends on the history of the iterations and on all errors.", "anchors": ["src/auv_cal/camera_calibrator.py:MonoCalibrator.cal_fromcorners"]}
{"id": "C107", "title": "The rectification written belongs to the pose written", "statement": "The stereo calibration with the smallest error is written, together with the rectification computed from it.", "quantifier": "all sets of views, solvers and errors", "why_tests_cant": "Depends on the order of the errors over the iterations.", "anchors": ["src/auv_cal/camera_calibrator.py:StereoCalibrator.cal_fromcorners", "src/auv_cal/camera_calibrator.py:StereoCalibrator.yaml"]}
{"id": "C108", "title": "Stereo views are removed because of their own error", "statement": "From one stereo iteration to the next, the views removed are those with an epipolar error of the average plus two standard deviations or more.", "quantifier": "all sets of views, solvers and errors", "why_tests_cant": "Concerns the indices of views over several iterations.", "anchors": ["src/auv_cal/camera_calibrator.py:StereoCalibrator.cal_fromcorners"]}
{"id": "C109", "title": "Corners are refined without reaching neighbouring corners", "statement": "The radius in which a corner is refined is at most half the distance, rounded up, of any two corners that are neighbours on the board.", "quantifier": "all board sizes and corner positions", "why_tests_cant": "Index arithmetic over all board sizes.", "anchors": ["src/auv_cal/camera_calibrator.py:_get_corners"]}
{"id": "C110", "title": "Images of a second camera are resized to the size of the first", "statement": "An image resized for a stereo calibration has the target width and height.", "quantifier": "all image and target sizes", "why_tests_cant": "Rounding over all sizes.", "anchors": ["src/auv_cal/camera_calibrator.py:resize_with_padding"]}
{"id": "C111", "title": "Stereo views are pairs of images taken together", "statement": "If image names contain times, a pair consists of a left image and the right image nearest in time, less than 50 ms apart, and every left image with such a right image is in a pair; otherwise the pairs are exactly the images of equal name. Without detections in one camera the program fails.", "quantifier": "all lists of image names with detections", "why_tests_cant": "Depends on all pairs of names.", "anchors": ["src/auv_cal/camera_calibrator.py:find_common_filenames"]}
{"id": "C112", "title": "Views are described by numbers between 0 and 1", "statement": "The four numbers that describe a view (position, size and skew) are between 0 and 1 if all corners are in the image.", "quantifier": "all board sizes, image sizes and corner positions", "why_tests_cant": "Real arithmetic over all positions.", "anchors": ["src/auv_cal/camera_calibrator.py:get_parameters", "src/auv_cal/camera_calibrator.py:_get_area", "src/auv_cal/camera_calibrator.py:_get_skew"]}
{"id": "C113", "title": "The epipolar error is the distance of the rows", "statement": "The epipolar error of a view is the root mean square difference of the rows of corresponding points.", "quantifier": "all lists of corresponding points", "why_tests_cant": "Real arithmetic over all points.", "anchors": ["src/auv_cal/camera_calibrator.py:epipolar_error"]}
{"id": "C114", "title": "Calibrations are not overwritten unless asked", "statement": "Without -F the commands mono, stereo and laser keep every calibration that exists; without -FF mono keeps the saved detections.", "quantifier": "all contents of the calibration folder, lists of cameras, suffixes and results of the detection", "why_tests_cant": "Concerns every state of the folder, including those left by earlier runs with other options.", "anchors": ["src/auv_cal/calibration.py:Calibrator.mono", "src/auv_cal/calibration.py:Calibrator.stereo", "src/auv_cal/calibration.py:Calibrator.laser"]}
{"id": "C115", "title": "Repeating the monocular calibration changes nothing", "statement": "Running mono a second time leaves all files as they are and ends in the same way as the first time; if all cameras are calibrated nothing is done.", "quantifier": "all contents of the calibration folder, lists of cameras, suffixes and results of the detection, including failures", "why_tests_cant": "Concerns pairs of runs from every state.", "anchors": ["src/auv_cal/calibration.py:Calibrator.mono", "src/auv_cal/calibration.py:calibrate_mono"]}
{"id": "C116", "title": "Forced calibrations use the saved detections, or new ones if asked", "statement": "With -F a camera is calibrated again from its saved detections, which stay the same; with -FF from new detections, which are saved.", "quantifier": "all contents of the calibration folder, lists of cameras and suffixes", "why_tests_cant": "Concerns every state of the folder.", "anchors": ["src/auv_cal/calibration.py:calibrate_mono"]}
{"id": "C117", "title": "A stereo calibration is computed from the current monocular calibrations", "statement": "If stereo ends without error both monocular calibrations exist and the stereo calibration is computed from them and their detections; if the images differ in size, from a calibration of the right camera with images resized to the size of the left camera.", "quantifier": "all contents of the calibration folder, options and cameras", "why_tests_cant": "Concerns every state of the folder, including files from earlier runs.", "anchors": ["src/auv_cal/calibration.py:calibrate_stereo", "src/auv_cal/calibration.py:Calibrator.stereo"]}
{"id": "C118", "title": "All stereo pairs are calibrated", "statement": "After stereo with three cameras there are calibrations of the first camera with the second, and of the first with the third in both directions.", "quantifier": "all contents of the calibration folder and cameras whose images show the pattern", "why_tests_cant": "Concerns every state of the folder.", "anchors": ["src/auv_cal/calibration.py:Calibrator.stereo"]}
{"id": "C119", "title": "Projected points are pixels of the image", "statement": "A stereo pair gives a pixel for a point exactly if the camera sees the point there, in front of it and inside the image.", "quantifier": "all projection matrices, image sizes and points", "why_tests_cant": "Quantifies over all real cameras and points.", "anchors": ["src/oplab/camera_models.py:StereoCamera.project_point", "src/oplab/camera_models.py:MonoCamera.return_valid"]}
{"id": "C120", "title": "Triangulating the projections of a point gives the point", "statement": "For every point seen by both cameras of a stereo pair whose pixels determine it, in particular for rectified cameras with a baseline, the triangulation of its two pixels is the point.", "quantifier": "all stereo pairs with a baseline and points in front of both cameras", "why_tests_cant": "Quantifies over all real cameras and points.", "anchors": ["src/oplab/camera_models.py:StereoCamera.triangulate_point", "src/oplab/camera_models.py:StereoCamera.project_point"]}
{"id": "C121", "title": "Distortion and its removal undo each other", "statement": "Distorting an undistorted pixel, and removing the distortion of a distorted one, give back the pixel, and cameras without distortion leave pixels as they are.", "quantifier": "all cameras and pixels", "why_tests_cant": "Quantifies over all real cameras and pixels.", "anchors": ["src/oplab/camera_models.py:MonoCamera.distort_point", "src/oplab/camera_models.py:MonoCamera.undistort_point"]}
{"id": "C122", "title": "Rectification and its inverse undo each other", "statement": "Undoing the rectification of a rectified pixel gives back the pixel.", "quantifier": "all stereo pairs and pixels", "why_tests_cant": "Quantifies over all real cameras and pixels.", "anchors": ["src/oplab/camera_models.py:MonoCamera.undistort_and_rectify_point", "src/oplab/camera_models.py:MonoCamera.unrectify_and_distort_point"]}
{"id": "C123", "title": "Projecting to the distorted images never fails", "statement": "Projecting a point to the distorted images gives for each camera a pixel of its image or none.", "quantifier": "all stereo pairs and points", "why_tests_cant": "Quantifies over all real cameras and points.", "anchors": ["src/oplab/camera_models.py:StereoCamera.project_point_undistorted"]}
{"id": "C124", "title": "A downsized camera sees the same points at scaled pixels", "statement": "After downsizing, every point projects to its old pixel scaled by the ratio, and the image size is the scaled size rounded down.", "quantifier": "all cameras, sizes and points", "why_tests_cant": "Quantifies over all real cameras and points.", "anchors": ["src/oplab/camera_models.py:MonoCamera", "src/oplab/camera_models.py:StereoCamera"]}
{"id": "C125", "title": "A calibration file gives back the calibration", "statement": "Reading a calibration that was written gives the parameters up to the printed precision, and writing again changes nothing more.", "quantifier": "all calibrations", "why_tests_cant": "Quantifies over all real parameters.", "anchors": ["src/oplab/camera_models.py:MonoCamera.to_str", "src/oplab/camera_models.py:MonoCamera.from_node"]}
{"id": "C126", "title": "A camera lists all its images in order", "statement": "The list of images of a camera has every image that matches its path, once, in order of the paths.", "quantifier": "all contents of the dive folder and paths with or without wildcards", "why_tests_cant": "Concerns every content of the folder, in any order of the file system.", "anchors": ["src/oplab/camera_system.py:CameraEntry.image_list"]}
{"id": "C127", "title": "Times and images of a camera fit together", "statement": "After any history of requests, the k-th time is the time of the k-th image, the images stay the same, and there is one time per image.", "quantifier": "all histories of requests, with the folder changing in between and conversions failing", "why_tests_cant": "Concerns every history of requests and failures.", "anchors": ["src/oplab/camera_system.py:CameraEntry.stamp_list", "src/oplab/camera_system.py:CameraEntry.image_list", "src/oplab/filename_to_date.py:FilenameToDate.__call__"]}
{"id": "C128", "title": "Timestamp files give the times of the images", "statement": "For a camera that is accepted, the time of an image is that of the row of the timestamp file with its index.", "quantifier": "all timestamp files, indices and descriptions of cameras", "why_tests_cant": "Concerns every content of the file.", "anchors": ["src/oplab/filename_to_date.py:FilenameToDate.read_timestamp_file", "src/oplab/filename_to_date.py:FilenameToDate.string_to_epoch", "src/oplab/camera_system.py:CameraEntry"]}
{"id": "C129", "title": "The altitude limits of the configuration are used", "statement": "Parse and process use their own altitude limits if both are given, otherwise the common limits, otherwise the program ends; the distance metric is one of the three, none standing for uniform.", "quantifier": "all contents of the section on colour correction", "why_tests_cant": "Concerns every combination of entries.", "anchors": ["src/correct_images/parser.py:ColourCorrection"]}
{"id": "C130", "title": "Dives are only parsed together if their setups agree", "statement": "Several dives are parsed together exactly if every two have the same camera system, method, cameras, metric, smoothing and window, and the result does not depend on their order.", "quantifier": "all lists of dives and their configurations", "why_tests_cant": "Concerns all lists of dives.", "anchors": ["src/correct_images/parser.py:CorrectConfig.is_equivalent", "src/correct_images/correct_images.py:call_parse", "src/correct_images/corrector.py:Corrector.parse"]}
{"id": "C131", "title": "Process uses the parameters that parse computed", "statement": "After parse has ended without error, process finds in every dive the parameters it needs, all of that run; after any history of runs and crashes it refuses or uses parameters of a single run.", "quantifier": "all contents of the folders, lists of dives, options, histories of runs and crash points", "why_tests_cant": "Concerns every history of runs and every crash point.", "anchors": ["src/correct_images/corrector.py:Corrector.parse", "src/correct_images/corrector.py:Corrector.process", "src/correct_images/corrector.py:Corrector.generate_attenuation_correction_parameters"]}
{"id": "C132", "title": "The command correct parses and processes", "statement": "The command correct on a dive parses that dive and processes it, and the command parse goes on with the dives that are given.", "quantifier": "all paths and lists of paths", "why_tests_cant": "Concerns every path.", "anchors": ["src/correct_images/correct_images.py:call_correct", "src/correct_images/correct_images.py:call_parse"]}
{"id": "C133", "title": "The cameras are described by the right file", "statement": "camera.yaml of the config folder is used before that of the raw folder and that before the default; it is accepted only if it is for the image system of the mission and no type of a camera differs.", "quantifier": "all contents of the files and image systems", "why_tests_cant": "Concerns every combination of files.", "anchors": ["src/correct_images/correct_images.py:load_configuration_and_camera_system"]}
{"id": "C134", "title": "Different settings give different output folders", "statement": "Images corrected with different metric, brightness, contrast or suffix, and parameters for different metric or suffix, are kept in different folders.", "quantifier": "all metrics, brightness, contrast and suffixes", "why_tests_cant": "Concerns all pairs of settings.", "anchors": ["src/correct_images/corrector.py:Corrector.create_output_directories"]}
{"id": "C135", "title": "All configured cameras are processed", "statement": "Process writes the images of every configured camera with images to the folder of the camera.", "quantifier": "all lists of cameras, configurations and contents of the output folders", "why_tests_cant": "Concerns all lists of cameras.", "anchors": ["src/correct_images/correct_images.py:call_process", "src/correct_images/corrector.py:Corrector.create_output_directories"]}
{"id": "C136", "title": "Every image in FileTime.csv gets its own time", "statement": "Each image logged by the SeaXerocks cameras gives one record with its own universal time and file names, in the order of the file, whatever empty or short lines there are.", "quantifier": "all files, dates, time zones and offsets", "why_tests_cant": "Concerns files of any length and all dates.", "anchors": ["src/auv_nav/parsers/parse_seaxerocks_images.py:parse_seaxerocks_images"]}
{"id": "C137", "title": "Paths of laser images exist", "statement": "Whichever convention the dataset uses for folders and extension, the path recorded for every laser image is that of an existing file.", "quantifier": "all lists of image numbers and all four conventions", "why_tests_cant": "Concerns all numbers of images.", "anchors": ["src/auv_nav/parsers/parse_seaxerocks_images.py:determine_extension_and_images_per_folder", "src/auv_nav/parsers/parse_seaxerocks_images.py:build_image_path"]}
{"id": "C138", "title": "Times of NTNU stereo images", "statement": "The time of an image is the one in its name, and later images have later times.", "quantifier": "all dates and fractions of seconds", "why_tests_cant": "Concerns all names.", "anchors": ["src/auv_nav/parsers/parse_ntnu_stereo.py:timestamp_from_filename"]}
{"id": "C139", "title": "Times and paths of Voyis images", "statement": "Every image whose name says PPS or SYSTEM has the time of its name, corrected to universal time with the offset of the mission, and its own path.", "quantifier": "all lists of stills and laser images, time zones and offsets", "why_tests_cant": "Concerns all lists of names.", "anchors": ["src/auv_nav/parsers/parse_voyis.py:parse_voyis_images"]}
{"id": "C140", "title": "Fractions of seconds in logs", "statement": "The fraction of a second written with any number of digits is read as that fraction.", "quantifier": "all numbers of digits and digits", "why_tests_cant": "Concerns all texts of digits.", "anchors": ["src/auv_nav/parsers/parse_ae2000.py:parse_ae2000", "src/auv_nav/parsers/parse_NOC_nmea.py:parse_NOC_nmea"]}
{"id": "C141", "title": "Headings and depths of AE2000 logs", "statement": "Headings with the sensor offset are equal to the sum up to full turns and lie between 0 and 360 degrees; no depth is invented, none of the values is lost, and the depth interpolated at the time of a measurement is the measured one.", "quantifier": "all logs, headings and offsets", "why_tests_cant": "Concerns logs of any length.", "anchors": ["src/auv_nav/parsers/parse_ae2000.py:parse_ae2000"]}
{"id": "C142", "title": "All tide measurements are read", "statement": "A tide file with its header of five lines gives one record for every measurement, with its own time and height and a standard deviation that is not negative.", "quantifier": "all tide files, time zones and offsets", "why_tests_cant": "Concerns files of any length.", "anchors": ["src/auv_nav/parsers/parse_tide_CTI.py:parse_tide_CTI"]}
{"id": "C143", "title": "Positions and times of HyBIS logs", "statement": "A latitude written DDMM.mmmmmH or a longitude written DDDMM.mmmmmH is read as signed degrees, and a date and time as universal time.", "quantifier": "all positions, hemispheres, dates and times", "why_tests_cant": "Concerns all texts of these forms.", "anchors": ["src/auv_nav/parsers/hybis.py:Hybis.convert_latlon", "src/auv_nav/parsers/hybis.py:Hybis.convert"]}
{"id": "C144", "title": "Missing altitudes and depths of HyBIS are filled", "statement": "Measured altitudes and depths are kept; a missing one is replaced by a value that is not outside the measured ones.", "quantifier": "all logs", "why_tests_cant": "Concerns logs of any length and any pattern of missing values.", "anchors": ["src/auv_nav/parsers/hybis.py:Hybis.run", "src/auv_nav/parsers/koyo20rov.py:RovParser.load_data"]}
{"id": "C145", "title": "Poses of HyBIS images", "statement": "An image taken between two records gets the pose between these two, and at a record the pose of the record.", "quantifier": "all logs and all times of images", "why_tests_cant": "Concerns logs of any length.", "anchors": ["src/auv_nav/parsers/hybis.py:Hybis.run"]}
{"id": "C146", "title": "Reference position of HyBIS", "statement": "The reference position the user gives is the one used.", "quantifier": "all reference positions and logs", "why_tests_cant": "Concerns all positions.", "anchors": ["src/auv_nav/parsers/hybis.py:Hybis.run"]}
{"id": "C147", "title": "Every valid ROS message gives its own record", "statement": "Each message of a bag that holds a valid measurement gives exactly one record with its own time and values, in order, in either format; invalid messages and unreadable bags do not influence other records.", "quantifier": "all lists of bags and messages, all sensors", "why_tests_cant": "Concerns all histories of messages, including the points where a bag becomes unreadable.", "anchors": ["src/auv_nav/parsers/parse_rosbag.py:rosbag_topic_worker", "src/auv_nav/sensors.py:OutputFormat.export", "src/auv_nav/sensors.py:BodyVelocity.from_ros", "src/auv_nav/sensors.py:Altitude.from_ros", "src/auv_nav/sensors.py:Depth.from_ros", "src/auv_nav/sensors.py:Orientation.from_ros"]}
{"id": "C148", "title": "Implausible or missing ROS velocities are not recorded", "statement": "Velocities marked as missing by the DVL, without bottom lock or above 2.5 m/s (cola2) are not recorded.", "quantifier": "all messages and mounting angles", "why_tests_cant": "Concerns all values.", "anchors": ["src/auv_nav/sensors.py:BodyVelocity.from_ros"]}
{"id": "C149", "title": "The mounting angle of a sensor turns its measurements", "statement": "Headings change by the mounting angle and stay between 0 and 360 degrees; velocities are rotated; uncertainties stay non-negative.", "quantifier": "all angles, measurements and histories of messages", "why_tests_cant": "Concerns all angles.", "anchors": ["src/auv_nav/sensors.py:Orientation.apply_offset", "src/auv_nav/sensors.py:BodyVelocity.apply_offset"]}
{"id": "C150", "title": "Uncertainties of positions agree in metres and degrees", "statement": "A position given in degrees has the distance and bearing from the reference in metres, and its uncertainties in metres and in degrees say the same, for every source of positions.", "quantifier": "all positions, depths and uncertainty parameters", "why_tests_cant": "Concerns all real numbers.", "anchors": ["src/auv_nav/sensors.py:Usbl.fill_from_lat_lon_depth", "src/auv_nav/sensors.py:Usbl.from_nmea", "src/auv_nav/sensors.py:Usbl.from_ros", "src/auv_nav/parsers/parse_usbl_dump.py:parse_usbl_dump"]}
{"id": "C151", "title": "Velocities and uncertainties of INS, DVL and pressure sensors", "statement": "Velocities keep their size when axes are changed, implausible ones are dropped, and uncertainties are non-negative and those of the sensor in the unit of the quantity.", "quantifier": "all measurements, angles and parameters", "why_tests_cant": "Concerns all real numbers.", "anchors": ["src/auv_nav/sensors.py:InertialVelocity.from_phins", "src/auv_nav/sensors.py:BodyVelocity.from_phins", "src/auv_nav/sensors.py:BodyVelocity.from_ntnu_dvl", "src/auv_nav/sensors.py:BodyVelocity.get_std", "src/auv_nav/sensors.py:Depth.from_ros"]}
{"id": "C152", "title": "Times of logs do not depend on the computer", "statement": "The times of NTNU, EIVA and koyo21 logs are the same on every computer and follow the time zone and offset of the mission.", "quantifier": "all dates, times, time zones and offsets", "why_tests_cant": "Concerns the settings of the computer, which tests run under only one of.", "anchors": ["src/auv_nav/sensors.py:BodyVelocity.from_ntnu_dvl", "src/auv_nav/sensors.py:Orientation.from_eiva_navipac", "src/auv_nav/sensors.py:Depth.from_eiva_navipac", "src/auv_nav/sensors.py:Usbl.from_eiva_navipac", "src/auv_nav/parsers/parse_koyo21rov.py:parse_koyo21rov"]}
{"id": "C153", "title": "Depths of the chosen transponder are found", "statement": "All depth lines of the transponder with the chosen label, and no others, are read from EIVA NaviPac files.", "quantifier": "all labels and lines", "why_tests_cant": "Concerns all labels.", "anchors": ["src/auv_nav/parsers/parse_eiva_navipac.py:parse_eiva_navipac"]}
{"id": "C154", "title": "Stereo pairs extracted from bags consist of two images", "statement": "The two images of a pair are different and taken within the tolerance.", "quantifier": "all listings and times", "why_tests_cant": "Concerns all listings.", "anchors": ["src/auv_nav/parsers/parse_rosbag.py:parse_rosbag_extracted_images"]}
{"id": "C155", "title": "Values of a line of a Sonardyne log", "statement": "The values between the separators of a line are read back in order, a value within quotes keeps its separators, and a line that does not have the number of values of its kind is rejected.", "quantifier": "all lines of values", "why_tests_cant": "Concerns lines with any values.", "anchors": ["src/auv_nav/parsers/parse_sonardyne_mrt.py:parse_mrt_csv", "src/auv_nav/parsers/parse_sonardyne_mrt.py:MRTBase"]}
{"id": "C156", "title": "Observations of a Sonardyne log", "statement": "Every line of a known kind gives one observation with its own values, in order, and lines of other kinds give none.", "quantifier": "all logs", "why_tests_cant": "Concerns logs of any length and order of kinds.", "anchors": ["src/auv_nav/parsers/parse_sonardyne_mrt.py:parse_mrt_csv"]}
{"id": "C157", "title": "A fix uses the ship position closest in time", "statement": "Every USBL observation is joined, once and in order, with the position of the ship closest in time.", "quantifier": "all lists of observations and ship positions", "why_tests_cant": "Concerns lists of any length.", "anchors": ["src/auv_nav/parsers/parse_sonardyne_mrt.py:find_closest_observations"]}
{"id": "C158", "title": "Values of a Sonardyne fix", "statement": "The distance and the north and east components of a fix agree with the position of the beacon, and its uncertainty grows with the distance.", "quantifier": "all observations", "why_tests_cant": "Concerns all real numbers.", "anchors": ["src/auv_nav/parsers/parse_sonardyne_mrt.py:parse_sonardyne_mrt"]}
{"id": "C159", "title": "Times of Sonardyne fixes do not depend on the computer", "statement": "The time of a fix is the same on every computer and follows the time zone and offset of the mission.", "quantifier": "all times, time zones and offsets", "why_tests_cant": "Concerns the settings of the computer, which tests run under only one of.", "anchors": ["src/auv_nav/parsers/parse_sonardyne_mrt.py:parse_sonardyne_mrt", "src/auv_nav/parsers/parse_sonardyne_mrt.py:parse_sonardyne_gga"]}
{"id": "C160", "title": "Rows of GGA logs", "statement": "Every complete row of the chosen beacon gives one fix with its own values and time, independent of the other rows; other rows give none.", "quantifier": "all logs of the four formats", "why_tests_cant": "Concerns logs of any length.", "anchors": ["src/auv_nav/parsers/parse_sonardyne_mrt.py:parse_gga_txt", "src/auv_nav/parsers/parse_sonardyne_mrt.py:parse_gga2_txt", "src/auv_nav/parsers/parse_sonardyne_mrt.py:parse_gga3_txt", "src/auv_nav/parsers/parse_sonardyne_mrt.py:parse_gga4_txt", "src/auv_nav/parsers/parse_sonardyne_mrt.py:parse_sonardyne_gga"]}
{"id": "C161", "title": "Times of the logs of the ROV of 2020", "statement": "Dates and times of the cameras, of the compass and of the ship are read as universal time, with milliseconds.", "quantifier": "all dates and times", "why_tests_cant": "Concerns all dates and times.", "anchors": ["src/auv_nav/parsers/koyo20rov.py:RovCam.convert_times_to_epoch", "src/auv_nav/parsers/koyo20rov.py:RovRot.convert_times_to_epoch", "src/auv_nav/parsers/koyo20rov.py:RovPos.convert_timestr_to_epoch"]}
{"id": "C162", "title": "Records of the position logs of the ROV", "statement": "Every record that is later than all records before it in its file is used, and the records of all files are merged in order of time.", "quantifier": "all files and records", "why_tests_cant": "Concerns files of any length and order.", "anchors": ["src/auv_nav/parsers/koyo20rov.py:RovParser.load_data"]}
{"id": "C163", "title": "Which position logs of the ROV are read", "statement": "Exactly the logs with names that do not end in FIX are read.", "quantifier": "all file names", "why_tests_cant": "Concerns all names.", "anchors": ["src/auv_nav/parsers/koyo20rov.py:RovParser.load_data"]}
{"id": "C164", "title": "Positions and headings of ROV images", "statement": "An image taken while the logs run gets the position and heading between the two records around it; exactly the images with both are kept.", "quantifier": "all logs and times of images", "why_tests_cant": "Concerns logs of any length.", "anchors": ["src/auv_nav/parsers/koyo20rov.py:RovParser.interpolate_vector_pos", "src/auv_nav/parsers/koyo20rov.py:RovParser.interpolate_vector_rot", "src/auv_nav/parsers/koyo20rov.py:RovParser.interpolate_to_images", "src/auv_nav/parsers/koyo20rov.py:RovParser.filter_nans"]}
{"id": "C165", "title": "Outputs of ROV dives", "statement": "The outputs are written whenever there are camera images with a pose, and different images have different paths.", "quantifier": "all numbers of images", "why_tests_cant": "Concerns all numbers.", "anchors": ["src/auv_nav/parsers/koyo20rov.py:RovParser.filter_nans", "src/auv_nav/parsers/koyo20rov.py:RovParser.write_outputs"]}
{"id": "C166", "title": "Lever arms of the ROV", "statement": "The pose of a camera is the pose of the dvl moved by its lever arm: distances between cameras are those on the vehicle and the depth of the sea floor is the same from all of them.", "quantifier": "all attitudes and lever arms", "why_tests_cant": "Concerns all real numbers.", "anchors": ["src/auv_nav/parsers/koyo20rov.py:RovCam.add_lever_arms", "src/auv_nav/parsers/koyo20rov.py:RovParser.add_lever_arms"]}
{"id": "C167", "title": "Records of the logs of the ROV of 2021", "statement": "Every row with values gives one record, in order of time, and of rows of the same time the last one.", "quantifier": "all logs", "why_tests_cant": "Concerns logs of any length and order.", "anchors": ["src/auv_nav/parsers/parse_koyo21rov.py:parse_koyo21rov"]}
{"id": "C168", "title": "Settings of a processing run", "statement": "A section that is missing from the settings of a run switches that feature off, and the run comes to its end and writes its files.", "quantifier": "all settings", "why_tests_cant": "Concerns all combinations of sections and switches.", "anchors": ["src/auv_nav/process.py:process"]}
{"id": "C169", "title": "Models of uncertainties", "statement": "An uncertainty model given in the settings is used; one that is not given is that of the sensor.", "quantifier": "all settings", "why_tests_cant": "Concerns all settings.", "anchors": ["src/auv_nav/process.py:process"]}
{"id": "C170", "title": "Covariance matrices of the settings", "statement": "Matrices of 12 rows of 12 are used as written, of 15 rows of 15 the part of the 12 states; others are rejected.", "quantifier": "all lists of numbers", "why_tests_cant": "Concerns lists of any length.", "anchors": ["src/auv_nav/process.py:process"]}
{"id": "C171", "title": "Position of the laser camera", "statement": "The laser images get the position of the camera that took them.", "quantifier": "all missions and vehicles", "why_tests_cant": "Concerns all camera arrangements.", "anchors": ["src/auv_nav/process.py:process"]}
{"id": "C172", "title": "Time window of a run", "statement": "Without dates a run uses all records; dates that are given are used as universal time.", "quantifier": "all lists of records and all dates", "why_tests_cant": "Concerns logs of any length.", "anchors": ["src/auv_nav/process.py:process"]}
{"id": "C173", "title": "Folder of the results of a run", "statement": "Earlier results are only overwritten if asked for, and runs for different dates use different folders.", "quantifier": "all dates and existing folders", "why_tests_cant": "Concerns all dates.", "anchors": ["src/auv_nav/process.py:process"]}
{"id": "C174", "title": "Files of the poses", "statement": "Every camera with images gets a file of poses for every solution computed; files that are switched off are not written; no file is written twice.", "quantifier": "all settings, names and numbers of images", "why_tests_cant": "Concerns all names and numbers; two writers of a file run at the same time.", "anchors": ["src/auv_nav/process.py:process", "src/auv_nav/tools/csv_tools.py:write_csv", "src/auv_nav/tools/csv_tools.py:write_sidescan_csv"]}
{"id": "C175", "title": "Relative uncertainties", "statement": "Uncertainties relative to a chosen image are computed for the images found in earlier results; they are the sums of those of the two images.", "quantifier": "all missions, settings and lists of states", "why_tests_cant": "Concerns lists of any length.", "anchors": ["src/auv_nav/process.py:process"]}
{"id": "C176", "title": "Times of PHINS logs", "statement": "The times of a PHINS log, which has only the time of day, are those at which the lines were sent, also after midnight; the second 60 gives no time.", "quantifier": "all dates, times and time zones", "why_tests_cant": "Concerns all times.", "anchors": ["src/auv_nav/parsers/parse_phins.py:PhinsTimestamp", "src/auv_nav/sensors.py:BodyVelocity.parse_dvl_time", "src/auv_nav/sensors.py:Depth.from_phins"]}
{"id": "C177", "title": "Records of a PHINS log", "statement": "Every line adds at most one record to those of the lines before, which stay as they are, with the time of the last time line.", "quantifier": "all logs, all lines", "why_tests_cant": "Concerns logs of any length and order.", "anchors": ["src/auv_nav/parsers/parse_phins.py:PhinsParser.parse", "src/auv_nav/parsers/parse_phins.py:PhinsParser.process_line"]}
{"id": "C178", "title": "Orientations of PHINS logs", "statement": "The attitude of every cycle is recorded once, with the time and the uncertainties of this cycle and the heading offset applied.", "quantifier": "all logs", "why_tests_cant": "Concerns logs of any length and lost lines.", "anchors": ["src/auv_nav/parsers/parse_phins.py:PhinsParser.process_line", "src/auv_nav/sensors.py:Orientation.from_phins"]}
{"id": "C179", "title": "Velocities of PHINS logs", "statement": "Every velocity with a readable time is recorded once, in order, with its own values, times and uncertainties.", "quantifier": "all logs", "why_tests_cant": "Concerns logs of any length and order.", "anchors": ["src/auv_nav/parsers/parse_phins.py:PhinsParser.process_line", "src/auv_nav/sensors.py:BodyVelocity.from_phins", "src/auv_nav/sensors.py:InertialVelocity.from_phins"]}
{"id": "C180", "title": "Depths of PHINS logs", "statement": "Every depth with a readable time is recorded once, in order, with its own depth and time.", "quantifier": "all logs", "why_tests_cant": "Concerns logs of any length and order.", "anchors": ["src/auv_nav/parsers/parse_phins.py:PhinsParser.process_line", "src/auv_nav/sensors.py:Depth.from_phins"]}
{"id": "C181", "title": "Altitudes of PHINS logs", "statement": "Every altitude is recorded once, in order, with the time of the DVL line before it.", "quantifier": "all logs", "why_tests_cant": "Concerns logs of any length and order.", "anchors": ["src/auv_nav/parsers/parse_phins.py:PhinsParser.process_line", "src/auv_nav/sensors.py:Altitude.from_phins"]}
{"id": "C182", "title": "PHINS logs in the acfr format", "statement": "PHINS logs can be converted to the acfr format, and its lines hold the last values that were read.", "quantifier": "all logs", "why_tests_cant": "Concerns logs of any length and order.", "anchors": ["src/auv_nav/parsers/parse_phins.py:PhinsParser.build_rdi_acfr", "src/auv_nav/sensors.py:OutputFormat.export"]}
{"id": "C183", "title": "Orientations of ROS messages", "statement": "The roll, pitch and yaw recorded from an IMU message turn every vector as the quaternion of the message does, whatever its length; every message of the bags gives one record, in order, at its time.", "quantifier": "all quaternions, all vectors, all lists of bags and messages", "why_tests_cant": "Concerns all orientations, including those near the vertical, and bags of any length.", "anchors": ["src/auv_nav/tools/transformations.py:euler_from_quaternion", "src/auv_nav/sensors.py:Orientation.from_ros", "src/auv_nav/parsers/parse_rosbag.py:rosbag_topic_worker"]}
{"id": "C184", "title": "Messages without an orientation", "statement": "An IMU message that says, by a first covariance of -1, that it has no orientation gives no record.", "quantifier": "all messages without an orientation", "why_tests_cant": "Concerns all messages of this kind.", "anchors": ["src/auv_nav/sensors.py:Orientation.from_ros", "src/auv_nav/parsers/parse_rosbag.py:rosbag_topic_worker"]}
{"id": "C185", "title": "Times of BioCam images", "statement": "The times of a BioCam image, that of the computer and that of the camera, are those written in its name, in universal time, with three or six decimals.", "quantifier": "all dates, fractions, time zones and offsets, names of both forms", "why_tests_cant": "Concerns all times and names.", "anchors": ["src/auv_nav/parsers/parse_biocam_images.py:time_from_string", "src/auv_nav/parsers/parse_biocam_images.py:biocam_timestamp_from_filename"]}
{"id": "C186", "title": "Records of BioCam images", "statement": "Every image of the first camera that has an image of the second within 50 ms is recorded with the nearest one, and every laser image is recorded, with their own files and times.", "quantifier": "all lists of files with readable names", "why_tests_cant": "Concerns lists of any length and any times.", "anchors": ["src/auv_nav/parsers/parse_biocam_images.py:parse_biocam_images"]}
{"id": "C187", "title": "BioCam dives in the acfr format", "statement": "A dive that can be converted to the oplab format can be converted to the acfr format, with the same pairs.", "quantifier": "all lists of files", "why_tests_cant": "Concerns all dives.", "anchors": ["src/auv_nav/parsers/parse_biocam_images.py:parse_biocam_images"]}
{"id": "C188", "title": "Files and times of AE2000 logs", "statement": "The log of each AE2000 sensor is read from the folder configured for it; every complete row has the time that was written, corrected by the time offset configured for the sensor.", "quantifier": "all dates, logs, settings and sensors", "why_tests_cant": "Concerns all times and logs of any length.", "anchors": ["src/auv_nav/parsers/parse_ae2000.py:parse_ae2000"]}
{"id": "C189", "title": "Velocities of AE2000 logs", "statement": "The rows of a DVL log with bottom lock, and no others, give a velocity in m/s, turned by the mounting angles of the DVL, with the configured standard deviations, in both output formats.", "quantifier": "all logs, mounting angles and settings", "why_tests_cant": "Concerns logs of any length and all velocities.", "anchors": ["src/auv_nav/parsers/parse_ae2000.py:parse_ae2000"]}
{"id": "C190", "title": "Orientations, altitudes and depths of AE2000 logs", "statement": "Every complete row of an orientation log gives one record, every row with bottom lock one altitude, and the acfr format holds the same measurements as the oplab format.", "quantifier": "all logs, mounting angles and settings", "why_tests_cant": "Concerns logs of any length.", "anchors": ["src/auv_nav/parsers/parse_ae2000.py:parse_ae2000"]}
{"id": "C191", "title": "Fixes of NMEA logs", "statement": "Every telegram of the configured station in an NMEA log gives one fix, in the order of the log, with the time it was sent; telegrams of other stations and lines without a telegram give none.", "quantifier": "all logs, stations, dates, time zones and offsets", "why_tests_cant": "Concerns logs of any length and all times, including midnight.", "anchors": ["src/auv_nav/parsers/parse_NOC_nmea.py:parse_NOC_nmea"]}
{"id": "C192", "title": "Tide tables", "statement": "Every line of a POLPRED tide table after its head gives one record, in order, with the time and height it states and a standard deviation that is not negative.", "quantifier": "all tables, dates, heights, time zones and offsets", "why_tests_cant": "Concerns tables of any length and all heights.", "anchors": ["src/auv_nav/parsers/parse_NOC_polpred.py:parse_NOC_polpred"]}
{"id": "C193", "title": "Fixes of USBL dumps", "statement": "Every line of the configured beacon with a position in a USBL dump gives one fix, in the order of the file, with the time, position, depth, ranges and bearing it states; all other lines are skipped.", "quantifier": "all dumps, labels, dates, positions and offsets", "why_tests_cant": "Concerns dumps of any length and positions anywhere on the globe.", "anchors": ["src/auv_nav/parsers/parse_usbl_dump.py:parse_usbl_dump"]}
{"id": "C194", "title": "Records of ALR and Autosub logs", "statement": "Every row of an ALR or Autosub log with a time and a value gives one record of each requested category, in order, with the values of its columns, turned by the mounting angle of the sensor and with deviations that are not negative; rows without a value give none and change no other row.", "quantifier": "all logs, categories, column layouts, mounting angles and deviation models", "why_tests_cant": "Concerns logs of any length with gaps anywhere.", "anchors": ["src/auv_nav/parsers/parse_alr.py:parse_alr", "src/auv_nav/parsers/parse_autosub.py:parse_autosub", "src/auv_nav/sensors.py:BodyVelocity.from_alr", "src/auv_nav/sensors.py:BodyVelocity.from_autosub"]}
{"id": "C195", "title": "Records of EIVA and NTNU DVL logs", "statement": "Every complete telegram of an EIVA NaviPac log and every row of an NTNU DVL log gives one record with the time and values it states; incomplete telegrams, rows without bottom lock and other categories give none.", "quantifier": "all logs, labels, dates and categories", "why_tests_cant": "Concerns logs of any length, with telegrams cut anywhere and running over midnight.", "anchors": ["src/auv_nav/parsers/parse_eiva_navipac.py:parse_eiva_navipac", "src/auv_nav/parsers/parse_ntnu_dvl.py:parse_ntnu_dvl"]}
{"id": "C196", "title": "All clocks are treated alike", "statement": "Whatever the format of a log, the recorded time is the time the device wrote, less its time zone and plus its time offset from mission.yaml, whatever the time zone of the computer.", "quantifier": "all formats, time zones, offsets, times and computers", "why_tests_cant": "Concerns all time zones and offsets at once, and computers in any zone.", "anchors": ["src/oplab/mission.py:TimeZoneEntry", "src/auv_nav/parsers/parse_rdi.py", "src/auv_nav/parsers/parse_rosbag.py", "src/auv_nav/parsers/parse_ae2000.py", "src/auv_nav/parsers/parse_sonardyne_mrt.py", "src/auv_nav/parsers/parse_voyis.py", "src/auv_nav/parsers/parse_alr.py", "src/auv_nav/parsers/generic_csv_payload_parser.py", "src/auv_nav/sensors.py:BodyVelocity.from_ntnu_dvl"]}
{"id": "C197", "title": "Times of the vehicle in the clock of BioCam", "statement": "The script that corrects vehicle times uses every poll of the serial logs in order; each corrected time lies on the straight line through the polls around it, is the time BioCam showed where the clocks were compared, and later times stay later. Every given file is corrected into a new file named after it, and no existing file is overwritten unless that is asked for.", "quantifier": "all logs, polls, times, units of time, file lists and existing files", "why_tests_cant": "Concerns all times between, before and after the polls, and all sets of files.", "anchors": ["src/scripts/adjust_alr_to_biocam_time.py:TimeCorrector"]}
{"id": "C198", "title": "Settings of correct_images.yaml", "statement": "A run of correct_images uses the values written in its settings file and the documented defaults for what is left out; a method or metric that does not exist is refused before work starts; every accepted file can be run for each camera it names, with either method; images balanced in different ways go to different folders.", "quantifier": "all settings files with any sections, cameras, balances and limits", "why_tests_cant": "Every combination of optional sections, old and new names, and numbers of channels must be covered.", "anchors": ["src/correct_images/parser.py:CorrectConfig", "src/correct_images/parser.py:ColourCorrection", "src/correct_images/parser.py:CameraConfig", "src/correct_images/parser.py:CameraRescale", "src/correct_images/corrector.py:Corrector.load_configuration", "src/correct_images/corrector.py:Corrector.create_output_directories"]}
{"id": "C199", "title": "Merging dives", "statement": "Parsing several dives with the merge option completes: the navigation of all dives, ordered in time, is in one folder named after the first and the last dive, with the settings needed to process it, and no other file changes. Different sets of dives are merged into different folders.", "quantifier": "all lists of dives, in any order, with any contents of raw and processed folders", "why_tests_cant": "Depends on the files earlier runs left behind and on the order in which the dives are given.", "anchors": ["src/auv_nav/parse.py:parse", "src/auv_nav/parse.py:parse_single", "src/auv_nav/parse.py:merge_json_files"]}
{"id": "C200", "title": "Payload measurements", "statement": "Every row of the file of a payload is a measurement at its time plus the configured offset, and the output has all columns of the file with the same values beside the position, at the time the position was computed for. Every payload of the vehicle is read.", "quantifier": "all payload files with any columns, types of values and rows, all offsets, all sets of payloads", "why_tests_cant": "Concerns every combination of column names, column types and payload formats.", "anchors": ["src/auv_nav/parsers/generic_csv_payload_parser.py:generic_csv_payload_parser", "src/auv_nav/sensors.py:Payload", "src/auv_nav/process.py:process"]}
{"id": "C201", "title": "Corrections applied to an image", "statement": "Every image of a run is corrected with its own distance and the parameters of its own pixels and channels, keeps its colours, and is corrected for the distortion of the lens if that is requested and the camera is calibrated.", "quantifier": "all images, settings, statistics, distances, camera names and sets of calibration files", "why_tests_cant": "Depends on every combination of method, metric, camera type and existing files, for all pixel values.", "anchors": ["src/correct_images/corrector.py:process_correction", "src/correct_images/corrector.py:process_image", "src/correct_images/corrections/undistort.py:distortion_correct"]}
{"id": "C202", "title": "Measurements are combined with the prediction in the best way", "statement": "An accepted measurement moves the state by weights times the differences between the measured and the predicted values of exactly the measured components; the reported covariance is the error covariance for these weights, and no other weights give a smaller uncertainty in any direction. An accepted depth lies between the predicted and the measured one.", "quantifier": "all filter states with a covariance, all measurements with independent errors", "why_tests_cant": "Optimality is a comparison with all possible weights, for all covariances.", "anchors": ["src/auv_nav/localisation/ekf.py:EkfImpl.correct", "src/auv_nav/localisation/ekf.py:Measurement"]}
{"id": "C203", "title": "Exported navigation files have the rows of the exported images", "statement": "A simplified navigation file and the file for Squidle have exactly the rows whose image is in the given folder, each row once, ordered by time, with the values of the original columns; every image has one row; an existing file is replaced only on demand.", "quantifier": "all navigation files, folders and options", "why_tests_cant": "Depends on names, endings and order of arbitrary files.", "anchors": ["src/scripts/simplify_nav_file.py", "src/scripts/generate_nav_file_for_squidle.py"]}
{"id": "C204", "title": "Statistics of an acquisition describe the images at the bottom", "statement": "The number of images, their average altitude, the bottom time and the images during the bottom time are those of the images below the altitude threshold and within the times asked for; the distance travelled at the bottom is the length of the parts of the track at the bottom.", "quantifier": "all navigation files, thresholds and time limits", "why_tests_cant": "Sums and extremes over arbitrarily many images.", "anchors": ["src/scripts/image_acquisition_stats.py"]}
{"id": "C205", "title": "The time of an image in a bag finds this image", "statement": "For a camera recorded in bags, loading the time that navigation gave to an image gives the grey values of that image, between 0 and 1; images of other endings are read by the loader for their ending.", "quantifier": "all bags, images, clock offsets and bit depths", "why_tests_cant": "Depends on recording times and stamps of arbitrarily many images.", "anchors": ["src/correct_images/loaders/rosbag.py:loader", "src/correct_images/loaders/loader.py:Loader", "src/correct_images/corrector.py:load_configuration"]}
{"id": "C206", "title": "Relative uncertainties of poses", "statement": "The uncertainty of the poses between two images relative to the first of them is zero for the first, a covariance for each, and not below the uncertainty of the difference of the poses, however their errors depend on each other; it can be computed for each mission with a laser.", "quantifier": "all loaded poses and covariances, all dependences between their errors, all sets of cameras", "why_tests_cant": "Ranges over all joint covariances of two poses.", "anchors": ["src/auv_nav/process.py:process", "src/auv_nav/tools/csv_tools.py:load_states"]}
{"id": "C207", "title": "Poses of vehicle and cameras from the filters", "statement": "A camera pose made from a state of the extended Kalman filter or of dead reckoning is where the camera sits on the vehicle whose DVL has the estimated position and attitude; depth plus altitude of each pose is the depth of the seafloor that the sensors measured; latitude and longitude are those of the position; standard deviations are the roots of the variances in the units of the file; and a state turned into a pose and back is the same.", "quantifier": "all states, covariances, attitudes, altitudes and places of sensors on the vehicle", "why_tests_cant": "Ranges over all attitudes and lever arms.", "anchors": ["src/auv_nav/localisation/ekf.py:save_ekf_to_list", "src/auv_nav/localisation/ekf.py:EkfState", "src/auv_nav/sensors.py:Camera", "src/auv_nav/process.py:process", "src/auv_nav/localisation/pf.py:ParticleToSyncedOrientationBodyVelocity"]}
{"id": "C208", "title": "Cleaning of the ship log of the ROV", "statement": "Missing altitudes and depths in the log are interpolated from the next valid records on both sides, valid ones stay; positions that cannot be reached at 20 m/s are removed and all others stay; and existing outputs are not overwritten unless this is forced.", "quantifier": "all logs, all patterns of missing and wrong records", "why_tests_cant": "Ranges over all sequences of records.", "anchors": ["src/auv_nav/parsers/koyo20rov.py:RovParser.load_data", "src/auv_nav/parsers/koyo20rov.py:RovParser.filter_bad_measurements", "src/auv_nav/parsers/koyo20rov.py:RovParser.check_for_outputs"]}
{"id": "C209", "title": "Pairs of GoPro images", "statement": "Wherever the command is started, the parser for stereo images of GoPro cameras gives, for the list of files in the dive, one record for each row whose two images exist, in order, with the row's time and images.", "quantifier": "all lists of files, all folders, all places from which the command is started", "why_tests_cant": "Ranges over all file systems and working directories.", "anchors": ["src/auv_nav/parsers/parse_stereo_gopro.py:parse_stereo_gopro_images", "src/oplab/folder_structure.py:check_dirs_exist"]}
{"id": "C210", "title": "Fitting cones to laser points", "statement": "A rotation matrix about an axis rotates by the given angle about that axis; the residual of a point is its distance to the cone; the intersection of a ray with a cone returns the points in which the line meets the cone; a fitted surface can be drawn into an image.", "quantifier": "all axes, angles, points, cones, rays and image sizes", "why_tests_cant": "Ranges over all real vectors and angles; special positions (on the axis, parallel to the cone) have measure zero and are not hit by samples.", "anchors": ["src/auv_cal/cone_fitting.py:rotation_matrix", "src/auv_cal/cone_fitting.py:_distance", "src/auv_cal/cone_fitting.py:_from_coeffs", "src/auv_cal/cone_fitting.py:CircularCone.ray_intersection", "src/auv_cal/plane_fitting.py:Plane.image_triangulation"]}
{"id": "C211", "title": "What the sensors tell the Kalman filter", "statement": "Each reading of a depth sensor, DVL, USBL or compass reaches the filter as values of exactly the components it measures: the depth and the horizontal position of the DVL (the reading moved by the rotated lever arm), the velocities, the angles in radians. The variance of each component is the square of the standard deviation the sensor gives, or else of the one of the settings, which is never smaller than their offset.", "quantifier": "all readings, orientations, lever arms and settings", "why_tests_cant": "Ranges over all real readings, angles and settings.", "anchors": ["src/auv_nav/localisation/ekf.py:Measurement.from_depth", "src/auv_nav/localisation/ekf.py:Measurement.from_dvl", "src/auv_nav/localisation/ekf.py:Measurement.from_usbl", "src/auv_nav/localisation/ekf.py:Measurement.from_orientation"]}
{"id": "C212", "title": "The search for the uncertainty planes of a laser", "statement": "What is written about a laser belongs to the points nearer to the fitted plane than the threshold: their mean, and the fitted plane scaled so that its first coefficient is 1. The search for triples of these points that are far enough apart ends, with exactly the requested number of planes, for every cloud of at least four points that are not on one line.", "quantifier": "all clouds, thresholds, numbers of planes and sequences of draws", "why_tests_cant": "Termination for every cloud and every sequence of random draws.", "anchors": ["src/auv_cal/laser_calibrator.py:LaserCalibrator.fit_and_save", "src/auv_cal/plane_fitting.py:Plane.fit"]}
{"id": "C213", "title": "Texts of the sensors", "statement": "Every row of a table of body velocities, inertial velocities, orientations, depths, altitudes, USBL positions and tides has each value below its name; every sidescan line has each value of the pose in the order of the names of the first line; the lines for the ACFR programs have each value behind its name, and those of the USBL the horizontal range and the bearing of the vehicle seen from the ship.", "quantifier": "all measurements and poses", "why_tests_cant": "All values, all combinations of missing values.", "anchors": ["src/auv_nav/sensors.py:BodyVelocity.to_csv_row", "src/auv_nav/sensors.py:Usbl.to_csv_row", "src/auv_nav/sensors.py:Usbl.to_acfr", "src/auv_nav/sensors.py:SyncedOrientationBodyVelocity.to_sidescan_row", "src/auv_nav/tools/csv_tools.py:write_sidescan_csv"]}
{"id": "C214", "title": "Programs run the command they are asked for", "statement": "Each of the programs auv_nav, auv_cal and correct_images runs the command given by the arguments it is called with or else by the command line; correct_images runs no command with a suffix that has other characters than letters, digits, dashes and underscores.", "quantifier": "all command lines and lists of arguments", "why_tests_cant": "All combinations of command line and arguments.", "anchors": ["src/auv_nav/auv_nav.py:main", "src/auv_cal/auv_cal.py:main", "src/correct_images/correct_images.py:main"]}
{"id": "C215", "title": "Rescaling all cameras", "statement": "If correct_images rescale ends well, every image with an altitude, of every camera in the settings, is rescaled into the camera's output folder with the camera's own calibration and altitudes; whatever happens, nothing else is written.", "quantifier": "all settings, camera systems, calibrations, tables and folders", "why_tests_cant": "All lists of cameras and files, and every error on the way.", "anchors": ["src/correct_images/corrections/rescale.py:rescale_camera", "src/correct_images/corrections/rescale.py:rescale_images", "src/correct_images/correct_images.py:call_rescale"]}
{"id": "C216", "title": "The filter finds the path of a straight run", "statement": "For a vehicle that keeps its attitude (not pointing straight up or down) and its speed, and sensors without errors, mounted anywhere on the vehicle and interleaved in any way, the Kalman filter does not stop with an error, every state it returns is the true position, attitude and velocity of the vehicle at its time, and it rejects no measurement. The smoother leaves such a history as it is. This holds for all covariances and all settings of the filter.", "quantifier": "all straight runs, sensor positions, schedules of measurements, covariances and filter settings", "why_tests_cant": "Quantifies over all schedules of measurements and all geometries; a test only runs a few.", "anchors": ["src/auv_nav/localisation/ekf.py:ExtendedKalmanFilter.run", "src/auv_nav/localisation/ekf.py:EkfImpl.predict", "src/auv_nav/localisation/ekf.py:EkfImpl.correct", "src/auv_nav/localisation/ekf.py:EkfImpl.smooth", "src/auv_nav/localisation/ekf.py:Measurement.from_usbl", "src/auv_nav/localisation/ekf.py:Measurement.from_depth"]}
{"id": "C217", "title": "Dead reckoning finds the path of a straight run", "statement": "For a vehicle that keeps its attitude and its speed above a flat seafloor, and sensors without errors mounted anywhere on it, the dead reckoned list and the poses given to the cameras have the true attitude, velocity, position, depth and altitude of the vehicle's origin and of the cameras at their times, whatever the times of the measurements.", "quantifier": "all straight runs, sensor positions and schedules of measurements", "why_tests_cant": "Quantifies over all schedules and geometries, through five stages of the program.", "anchors": ["src/auv_nav/process.py:process", "src/auv_nav/localisation/usbl_offset.py:usbl_offset", "src/auv_nav/localisation/dead_reckoning.py:dead_reckoning", "src/auv_nav/tools/interpolate.py:interpolate_sensor_list"]}
{"id": "C218", "title": "The turn rates given to the lever arm correction are those about the vehicle's own axes", "statement": "In a steady turn with any constant roll and pitch, the rates computed from the orientations and given to the lever arm correction of the DVL are the components of the rotation about the vertical along the vehicle's own axes.", "quantifier": "all rolls, pitches, turn rates and orientation records", "why_tests_cant": "A continuum of attitudes and rates.", "anchors": ["src/auv_nav/tools/dvl_level_arm.py:compute_angular_speeds", "src/auv_nav/process.py:process"]}
{"id": "C219", "title": "What was parsed is what is processed", "statement": "For any measurements the parsers return: parsing writes a navigation file from which processing, without start and finish, takes every valid measurement into the list of its sensor with its values, exactly as often as it was parsed and in the order of time; with start and finish exactly those in between. Measurements that are not valid are left out, the others kept, and stopping parse before it has finished does not make processing silently lose measurements.", "quantifier": "all lists of parsed measurements of all sensors, all windows, and the moment parse is interrupted between its two writes", "why_tests_cant": "Arbitrary numbers and orders of measurements and a crash point.", "anchors": ["src/auv_nav/parse.py:parse_single", "src/auv_nav/parsers/parse_interlacer.py:parse_interlacer", "src/auv_nav/process.py:process", "src/auv_nav/sensors.py:OutputFormat.export"]}
{"id": "C220", "title": "A sheet of laser light seen without noise is found", "statement": "For any rectified pair of cameras with a baseline along the columns, any rectifying rotation, any sheet of light and any images whose detections in the same column are the images of a point on the sheet in front of the cameras: every such point enters the cloud in vehicle axes, nothing else does, and the calibration reports the sheet itself as mean plane and as each of the requested uncertainty planes, with first coefficient one, and a mean point on it.", "quantifier": "all focal lengths, centres, baselines, rotations, sheets, numbers of images and detections, shuffles and triples drawn", "why_tests_cant": "Needs all scenes and all random draws.", "anchors": ["src/auv_cal/laser_calibrator.py:LaserCalibrator.cal", "src/auv_cal/laser_calibrator.py:LaserCalibrator.pointcloud_from_peaks", "src/auv_cal/laser_calibrator.py:LaserCalibrator.fit_and_save", "src/auv_cal/laser_calibrator.py:triangulate_lst", "src/auv_cal/laser_calibrator.py:opencv_to_ned", "src/auv_cal/plane_fitting.py:Plane.fit"]}
{"id": "C221", "title": "Every sensor of the mission is parsed once, by a parser of its format, from its own files", "statement": "For every mission.yaml: if every part that is there has a supported format, the dive is parsed, and each part leads to exactly one task; if some part has an unsupported format the run stops before anything is parsed. Nothing is parsed that was not asked for. The task reads the folder and file that its own part of mission.yaml names and records measurements of that kind.", "quantifier": "all missions: any subset of parts, formats, folders and file names", "why_tests_cant": "Needs all combinations of parts and formats.", "anchors": ["src/auv_nav/parse.py:parse_single", "src/auv_nav/parsers/parse_phins.py", "src/auv_nav/parsers/parse_alr.py", "src/auv_nav/parsers/parse_autosub.py", "src/auv_nav/parsers/parse_ae2000.py", "src/auv_nav/parsers/parse_gaps.py", "src/auv_nav/parsers/parse_koyo21rov.py"]}
{"id": "C222", "title": "The times of BioCam images are corrected for the clocks of the cameras", "statement": "After auv_nav parse, the times of the images of each BioCam camera are one linear function of the clock of that camera (laser images share the function of camera 2); no image has a time later than that at which it was received, and one image of each camera has exactly that; records keep their number, order, clocks and times of reception, and a record has the time of its first image. If the clocks run evenly and images are received at once, every image gets the time it was taken at.", "quantifier": "all sequences of pairs and laser images, clocks, times of reception, and lines proposed by the regression", "why_tests_cant": "Needs all sequences of records and delays.", "anchors": ["src/auv_nav/parsers/parse_biocam_images.py:correct_timestamps", "src/auv_nav/parse.py:parse_single"]}
{"id": "C223", "title": "The files written by auv_cal give back the calibration that was computed", "statement": "The file written after a mono or stereo calibration can be read, and the camera read from it has the same name and image size, and the camera matrix, distortion coefficients, rectification and projection matrices (and the relative pose, fundamental and essential matrix of a pair) that were computed, each number to six decimals. The stereo file says about the lens of each camera exactly what the file of that camera says.", "quantifier": "all cameras, numbers, relative poses and texts of the remarks", "why_tests_cant": "Round trip over all numbers: signs, rounding, widths, line and block structure.", "anchors": ["src/auv_cal/camera_calibrator.py:MonoCalibrator.yaml", "src/auv_cal/camera_calibrator.py:StereoCalibrator.yaml", "src/oplab/camera_models.py:MonoCamera.from_node", "src/oplab/camera_models.py:StereoCamera.from_node"]}
{"id": "C224", "title": "Dead reckoning follows any smooth motion, to within a bound that vanishes with the sampling intervals", "statement": "For a vehicle that turns and changes speed as it likes, with sensors without errors, the DVL at the origin of its frame and fixes of a transponder at the vehicle's origin: every dead reckoned entry has the attitude of its time, and its position, depth and altitude are within bounds proportional to the intervals between measurements (accelerations and speeds times intervals, times the length of the dive for the horizontal position). The same for the poses of cameras and other sensors. Measuring often enough brings the path as near to the true one as one likes.", "quantifier": "all motions with bounded speeds, accelerations and rates of turn, all sampling times, fixes, mounting positions of sensors, lengths of the dive", "why_tests_cant": "Unbounded number of steps: errors of interpolation and integration add up along the dive; headings pass north any number of times.", "anchors": ["src/auv_nav/process.py:process", "src/auv_nav/tools/dead_reckoning.py:dead_reckoning", "src/auv_nav/tools/interpolate.py:interpolate", "src/auv_nav/tools/interpolate.py:interpolate_sensor_list", "src/auv_nav/tools/body_to_inertial.py:body_to_inertial"]}
{"id": "C225", "title": "Corners of a chessboard are numbered alike in all views", "statement": "The corners that are stored for a view, and those given to the stereo solver for a pair of views, are numbered from the same corner of the board, row by row, whichever corner the detector starts with: equal numbers stand for the same corner in the left view, in the right view and among the points of the board.", "quantifier": "all sizes of boards, views of a board, orders in which a detector can list the corners, image sizes and refinements", "why_tests_cant": "The detector is free to start at any corner of the board, in every view anew; all combinations must give the same numbering.", "anchors": ["src/auv_cal/camera_calibrator.py:_get_corners", "src/auv_cal/camera_calibrator.py:Calibrator.get_corners", "src/auv_cal/camera_calibrator.py:StereoCalibrator.cal_from_json"]}
{"id": "C226", "title": "Corrected images show the floor", "statement": "Parameters computed from the images of a dive in which the light fades exponentially with altitude, differently at every channel of every pixel, recover that light. An image corrected with them shows the reflectance of the floor with the brightness and contrast asked for, whatever the altitude, the lamps, the water and the vignetting; the same floor photographed by two vehicles, each corrected with the parameters of its own dive, gives the same image files.", "quantifier": "all lights within the bounds of the fit, dives of any number of images at three or more altitudes, floors, image sizes, ways to average, altitudes of the corrected image", "why_tests_cant": "The claim is about the composition of binning, averaging, fitting, gain, statistics and correction for every light and floor; a test can compare a few pixels.", "anchors": ["src/correct_images/corrector.py:generate_attenuation_correction_parameters", "src/correct_images/corrector.py:compute_distance_bin", "src/correct_images/corrector.py:process_image", "src/correct_images/tools/curve_fitting.py:curve_fitting", "src/correct_images/corrections/attenuation.py:attenuation_correct", "src/correct_images/tools/numerical.py:RunningMeanStd"]}
{"id": "C227", "title": "The solution of the particle filter is a path", "statement": "In the solution of the particle filter the vehicle moves from each point to the next with the velocity and attitude reported for the first of them, whatever the noise, the fixes and the particles drawn. A run on ordered data succeeds and begins where dead reckoning does. Without noise the solution of a vehicle that keeps its velocity is its path, for every number of particles and all fixes, right or wrong.", "quantifier": "all settings, random draws, numbers of particles, dead reckoning lists, fixes", "why_tests_cant": "Holds for every history of resampling and every random draw; a test fixes a seed.", "anchors": ["src/auv_nav/localisation/pf.py:run_particle_filter", "src/auv_nav/localisation/pf.py:DeadReckoningMovementModel.propagate", "src/auv_nav/localisation/pf.py:ParticleToSyncedOrientationBodyVelocity"]}
{"id": "C228", "title": "The particle filter reports attitudes at their times", "statement": "Without noise every point of the particle filter's solution has the attitude, velocity and depth measured last before its time: those of the dead reckoning entry at the time of an entry.", "quantifier": "all settings, random draws, numbers of particles, dead reckoning lists, fixes", "why_tests_cant": "The deviation is one step of aliasing between the state and the stored trajectory; it vanishes in slow test data.", "anchors": ["src/auv_nav/localisation/pf.py:run_particle_filter", "src/auv_nav/localisation/pf.py:DeadReckoningMovementModel.propagate", "src/auv_nav/localisation/pf.py:ParticleToSyncedOrientationBodyVelocity"]}
{"id": "C229", "title": "Particles are spread by the configured uncertainties", "statement": "Depth, angles and velocities of a particle are those measured plus a random draw times the standard deviation given in the settings for that quantity (factor times its size plus offset, degrees for angles), with one factor for all axes of the velocity or one for each.", "quantifier": "all settings, readings and draws", "why_tests_cant": "The size of random noise cannot be read off single runs.", "anchors": ["src/auv_nav/localisation/pf.py:DeadReckoningMovementModel.propagate", "src/auv_nav/localisation/pf.py:run_particle_filter"]}
{"id": "C230", "title": "Conversion of HyBIS dives", "statement": "The command that converts HyBIS dives works for every log with poses and every reference position given as numbers: every file of the image folder gets one line, in order of names and numbered from 0, with the pose of the vehicle at the time the file was written, northing and easting being those seen from the reference.", "quantifier": "all logs (with rows without position), references, image folders and modification times", "why_tests_cant": "Depends on the composition of reading, filling, interpolating and geodesy for all logs; a test of the parser class with numbers never meets what the command line passes.", "anchors": ["src/auv_nav/parsers/hybis.py:HybisParser.__init__", "src/auv_nav/convert.py:hybis_to_oplab", "src/auv_nav/auv_nav.py:main"]}
{"id": "C231", "title": "The file of the USBL fixes", "statement": "If asked for, auv_usbl.csv has, when process ends, one line with the time, northing, easting, depth, latitude and longitude of every fix that was used, in order, under the six names of these values; wherever the run is cut off it has whole lines of the first fixes with at most the last one incomplete; and writing it does not fail because of the other threads.", "quantifier": "all lists of fixes, crash points and schedules of the writer threads", "why_tests_cant": "all lists, every crash point and every interleaving of the writers of raw measurements", "anchors": ["src/auv_nav/process.py:process"]}
{"id": "C232", "title": "Values in records of RDI logs", "statement": "From the lines of an RDI log, the parser makes records whose times are those of the ensembles (in the century of the dive folder, with the time offset of the mission), with velocities in m/s in the frame of the vehicle (turned by the angle of the dvl in vehicle.yaml, which is in degrees), uncertainties that are not negative, altitudes in metres with their configured uncertainty and the speed of sound, and attitudes in degrees; in both output formats.", "quantifier": "all logs of ensembles, texts of numbers, setups", "why_tests_cant": "all logs of any length and all angles; the units of an angle go unnoticed with an angle of zero", "anchors": ["src/auv_nav/parsers/parse_rdi.py:parse_rdi", "src/auv_nav/sensors.py:OutputFormat.export", "src/auv_nav/sensors.py:BodyVelocity", "src/auv_nav/sensors.py:Orientation", "src/auv_nav/sensors.py:Altitude"]}
{"id": "C233", "title": "Fixes of a whole Sonardyne MRT log", "statement": "The USBL fixes of a log are the valid positions of the vehicle in the configured file and the files that continue it, each exactly once and in time order, with its depth, its time corrected by the time zone and offset of the mission, and the ship position and heading that go with it.", "quantifier": "all folders of log files with any records, texts of numbers and times, and settings", "why_tests_cant": "all folders and logs of any length", "anchors": ["src/auv_nav/parsers/parse_sonardyne_mrt.py:parse_sonardyne_mrt", "src/auv_nav/parsers/parse_sonardyne_mrt.py:find_closest_observations", "src/auv_nav/parsers/parse_sonardyne_mrt.py:parse_mrt_csv"]}
{"id": "C234", "title": "Positions of ROS messages", "statement": "Every message of a bag that holds a position gives one record with its own time, degrees, metres from the origin, depth and uncertainties, whatever the messages before, and processing can read the record back with either uncertainty model.", "quantifier": "all lists of bags and messages of any length, all settings", "why_tests_cant": "all histories of messages", "anchors": ["src/auv_nav/sensors.py:Usbl.from_ros", "src/auv_nav/sensors.py:Usbl.clear", "src/auv_nav/sensors.py:Usbl._to_json", "src/auv_nav/sensors.py:Usbl.from_json", "src/auv_nav/parsers/parse_rosbag.py:rosbag_topic_worker"]}
{"id": "C235", "title": "Conversion of a dive of the ROV of 2020", "statement": "Converting a dive writes one line for each laser image and for each image of both colour cameras taken while both logs run, in order of time and no others, with its path and time, the attitude at its time, the position at its time moved to the camera and the degrees of that position; positions the vehicle cannot reach are not used, and nothing is written if an output exists and overwriting is not forced.", "quantifier": "all logs, images, vehicles and settings", "why_tests_cant": "all sequences of records and images", "anchors": ["src/auv_nav/convert.py:koyo20rov_to_oplab", "src/auv_nav/parsers/koyo20rov.py:RovParser.load_data", "src/auv_nav/parsers/koyo20rov.py:RovParser.interpolate_to_images", "src/auv_nav/parsers/koyo20rov.py:RovParser.filter_nans", "src/auv_nav/parsers/koyo20rov.py:RovParser.add_northings_eastings", "src/auv_nav/parsers/koyo20rov.py:RovParser.add_lever_arms", "src/auv_nav/parsers/koyo20rov.py:RovParser.write_outputs"]}
{"id": "C236", "title": "Stereo records of a folder of images", "statement": "Parsing a dive with ACFR or NTNU stereo images gives, from the listing of its folder, one record for each image of the first camera with an image of the second within 50 ms, in the order of the listing, with the times in the names and the nearest image of the second camera, whatever dives the process parsed before; the acfr format holds the same pairs as the oplab format.", "quantifier": "all listings, labels, time zones and offsets, and all sequences of dives parsed by one process", "why_tests_cant": "all listings and all histories of a process", "anchors": ["src/auv_nav/parsers/parse_acfr_images.py:parse_acfr_images", "src/auv_nav/parsers/parse_acfr_images.py:acfr_timestamp_from_filename", "src/auv_nav/parsers/parse_ntnu_stereo.py:parse_ntnu_stereo_images", "src/auv_nav/parse.py:parse"]}
{"id": "C237", "title": "Tide correction of a dive", "statement": "A dive with a tide record gets the navigation file of the same measurements with the height of the tide at their times taken off the depths of the depth sensor and of the USBL, where the record covers them, and left as they are elsewhere; nothing else of any record changes, these are the depths that are processed, and without a tide file nothing changes.", "quantifier": "all tide records, all results of all parsers", "why_tests_cant": "all tide records against all dives", "anchors": ["src/auv_nav/parse.py:parse", "src/auv_nav/tools/interpolate.py:interpolate", "src/auv_nav/parsers/parse_NOC_polpred.py:parse_NOC_polpred", "src/auv_nav/process.py:process"]}
{"id": "C238", "title": "Size of images and topic of a camera over dives", "statement": "A run of correct_images works with the size of the images of the camera: that of the first image in the order of the paths, or, for bags, that of the image of the first message of the topic of the mission; other endings and cameras without images are refused, and each dive of a run has its own size and topic.", "quantifier": "all folders, bags, missions and sequences of dives", "why_tests_cant": "all folders and all sequences of dives of one run", "anchors": ["src/oplab/camera_system.py:CameraEntry.image_properties", "src/oplab/camera_system.py:get_image_size", "src/oplab/camera_system.py:rosbag_image_loader", "src/correct_images/corrector.py:Corrector.set_path", "src/correct_images/corrector.py:Corrector.parse"]}
{"id": "C239", "title": "Merged dives are processed whole", "statement": "Processing the merged dives gives every measurement of every dive, each as often as it was parsed, in the order of time, with each image named by the folder of its dive and its own name, and nothing else; images of different dives never share a name; dives with different origins are not merged.", "quantifier": "all dives, all measurements of them, all windows and all origins", "why_tests_cant": "all numbers of dives and all interleavings of their measurements in time", "anchors": ["src/auv_nav/parse.py:merge_json_files", "src/auv_nav/parse.py:parse", "src/auv_nav/parse.py:parse_single", "src/auv_nav/process.py:process"]}
{"id": "C240", "title": "combined.RAW.auv has every measurement of a dive", "statement": "The file combined.RAW.auv that is written from a parsed dive has, in the order of time, the line of every orientation, depth and USBL fix and of both images of every stereo pair, with every value behind its name; a DVL velocity has a line exactly if an altitude and an orientation came since the last such line, with the latest of them.", "quantifier": "all dives and all sequences of valid measurements", "why_tests_cant": "all interleavings of sensors and all numbers of measurements", "anchors": ["src/auv_nav/convert.py:oplab_to_acfr", "src/auv_nav/tools/acfr_combined_raw.py:AcfrCombinedRawWriter", "src/auv_nav/sensors.py:Usbl.to_acfr"]}
{"id": "C241", "title": "The views of a monocular calibration", "statement": "A monocular calibration saves every sharp view of the pattern in the images of the camera, in the order of the images whatever the schedule of the workers, and is computed from the first view and all others that differ enough from those before; files that cannot be read are skipped, and a camera in whose images the pattern is not found does not stop the calibration of the others.", "quantifier": "all lists of images and all cameras of a run of mono", "why_tests_cant": "all sets of images and schedules of the workers", "anchors": ["src/auv_cal/camera_calibrator.py:MonoCalibrator.collect_corners", "src/auv_cal/calibration.py:calibrate_mono", "src/auv_cal/calibration.py:Calibrator.mono"]}
{"id": "C242", "title": "What the camera models write can be read", "statement": "The text that to_str of a MonoCamera or of a StereoCamera gives is a calibration file from which the same cameras are read, every number within half a millionth; in particular a camera that was read from a calibration file can be written and read again.", "quantifier": "all cameras, stereo pairs and metadata without line breaks", "why_tests_cant": "all cameras", "anchors": ["src/oplab/camera_models.py:MonoCamera.to_str", "src/oplab/camera_models.py:StereoCamera.to_str", "src/oplab/camera_models.py:MonoCamera.from_node", "src/oplab/camera_models.py:StereoCamera.from_node", "src/oplab/console.py:Console.write_metadata"]}
{"id": "C243", "title": "A run of the correction of vehicle times", "statement": "A run of the script that corrects vehicle times writes for every given table a new one with the corrected times in a new first column and all else unchanged; a row without a time keeps its place with an empty corrected time; no other file is changed, without -f no file that exists is changed however the run ends, no input is ever changed, and either all files are corrected or none.", "quantifier": "all logs, tables, file lists, options and existing files", "why_tests_cant": "all histories of runs and all tables", "anchors": ["src/scripts/adjust_alr_to_biocam_time.py:main", "src/scripts/adjust_alr_to_biocam_time.py:TimeCorrector.correct_timestamps", "src/scripts/adjust_alr_to_biocam_time.py:TimeCorrector.populate_output_file_path"]}
{"id": "C244", "title": "Laser poses from ACFR stereo poses", "statement": "Converting ACFR poses writes for every laser image of the dive one row, in order, with its own time and file and a position on the straight line between the stereo poses taken just before and after it; no position is invented for a time that no two poses surround; a laser file that exists is kept without -F, and a run that fails does not lose one.", "quantifier": "all stereo pose files, dives, laser times and options", "why_tests_cant": "all tracks and all times of images relative to them", "anchors": ["src/auv_nav/convert.py:acfr_to_oplab", "src/auv_nav/parsers/acfr_stereo_pose.py:AcfrStereoPoseFile.get_cameras", "src/auv_nav/tools/interpolate.py:interpolate_camera"]}
{"id": "C245", "title": "Images extracted from ROS bags and parsed", "statement": "Extracting the images of ROS bags to a folder and parsing the folder gives every image of the bags exactly once, with the time of its stamp to within 10 nanoseconds and in the order of stamps; no image replaces another, files that were in the folder before are kept, and a file that is no image does not stop the parser.", "quantifier": "all bags, stamps, numbers of images and contents of the folder", "why_tests_cant": "all stamps (digits and lengths) and all histories of extraction", "anchors": ["src/scripts/extract_rosbag_images.py:main", "src/auv_nav/parsers/parse_rosbag.py:parse_rosbag_extracted_images"]}
{"id": "C246", "title": "The log folder holds the configuration of every run", "statement": "Whatever is run and edited in a dive and in whatever order, a configuration file that exists is only changed by the user; every configuration file that a run of parse, process or correct_images worked with is in the log folder under the time of the run and stays there; and a dive with a mission and a vehicle file that can be loaded is parsed.", "quantifier": "all histories of runs and edits, contents and times", "why_tests_cant": "all interleavings of runs and edits", "anchors": ["src/auv_nav/parse.py:parse_single", "src/auv_nav/auv_nav.py:call_process_data", "src/auv_nav/process.py:process", "src/correct_images/correct_images.py:load_configuration_and_camera_system", "src/oplab/folder_structure.py:_copy"]}
{"id": "C247", "title": "Brightness of a folder of images", "statement": "The script that normalises a folder of images writes each of them under its name to the output folder, each pixel normalised with the mean and deviation of its own place over the images; a pixel that is brighter stays at least as bright and white stays white; the given images are not changed and images of any kind are corrected.", "quantifier": "all images, sizes, folders and samples", "why_tests_cant": "all pixel values and all image contents", "anchors": ["src/scripts/pixel_stats_folder.py:pixel_stat", "src/scripts/pixel_stats_folder.py:mean_std_array", "src/scripts/pixel_stats_folder.py:correct_image", "src/scripts/pixel_stats_folder.py:memmap_loader"]}
{"id": "C248", "title": "Paths in graphs of frames", "statement": "For every graph, find_path returns a path along edges that visits no vertex twice if there is a path, and nothing otherwise; it always ends, also with cycles; edges lists every edge exactly once; adding a vertex changes no edge; adding an edge adds it from its first to its second end and keeps all paths.", "quantifier": "all graphs, also with cycles and vertices without key, and all pairs of vertices", "why_tests_cant": "all graphs", "anchors": ["src/auv_nav/tools/graph.py:Graph.find_path", "src/auv_nav/tools/graph.py:Graph.add_edge", "src/auv_nav/tools/graph.py:Graph.add_vertex", "src/auv_nav/tools/graph.py:Graph.edges"]}
{"id": "C249", "title": "Temporary files of correct_images parse", "statement": "However correct_images parse ends, after an error in any step of any of its processes or without one, the folder for temporary files holds afterwards what it held before; the stack of a bin holds the images of the bin in their order.", "quantifier": "all smoothing methods, numbers of images of bins, orders in which the processes of the bins take their steps, and all points where the run ends", "why_tests_cant": "all interleavings of parallel processes and all crash points", "anchors": ["src/correct_images/corrector.py:Corrector.generate_attenuation_correction_parameters", "src/correct_images/corrector.py:Corrector.compute_distance_bin", "src/correct_images/corrector.py:Corrector.cleanup", "src/correct_images/corrector.py:try_remove", "src/correct_images/tools/memmap.py:create_memmap", "src/correct_images/tools/memmap.py:open_memmap", "src/correct_images/tools/memmap.py:memmap_loader"]}
{"id": "C250", "title": "Excluding images with bright artefacts", "statement": "compute_max_brightness writes for every image of a folder the brightness of its brightest pixel; find_images_with_artefacts lists exactly the images above the threshold; the command it prints gives the list of all other images; with that list the attenuation parameters are computed without the bright images.", "quantifier": "all folders, images, thresholds, paths and navigation tables", "why_tests_cant": "all image contents and sets of paths", "anchors": ["src/scripts/compute_max_brightness.py", "src/scripts/find_images_with_artefacts.py", "src/correct_images/tools/file_handlers.py:trim_csv_files"]}
{"id": "C251", "title": "Position files of the ROV of 2020", "statement": "The conversion of a dive of the ROV of 2020 reads exactly the csv files of the ship log whose names do not end in FIX; it starts only if its other inputs exist; its outputs do not depend on the order in which the file system lists the files.", "quantifier": "all sets of file names, orders of listing and contents", "why_tests_cant": "all names and listings", "anchors": ["src/auv_nav/parsers/koyo20rov.py:RovParser.__init__", "src/auv_nav/parsers/koyo20rov.py:RovParser.load_data", "src/auv_nav/convert.py:koyo20rov_to_oplab"]}
{"id": "C252", "title": "Which navigation is used", "statement": "correct_images finds the navigation of a camera if it was computed, uses that of the configured folder or by default of the only one, and that of the filter before dead reckoning; the choice does not depend on the order of a listing; with several dives each one's own is used; the other programs use the same.", "quantifier": "all processed folders, listings, configurations, cameras and sequences of dives", "why_tests_cant": "all folder contents and orders of listings", "anchors": ["src/correct_images/corrector.py:Corrector.get_imagelist", "src/correct_images/corrector.py:Corrector.load_configuration", "src/auv_nav/convert.py", "src/correct_images/corrections/rescale.py:rescale_camera", "src/scripts/merge_dataset_csv.py:find_navigation_csv"]}
{"id": "C253", "title": "Parsing does not depend on directory order", "statement": "The navigation file does not depend on the order in which the log files of a sensor, or the records in them, are listed; every USBL fix is computed from lines of one log file.", "quantifier": "all sets of log files, contents and orders of listing, all origins and other sensors", "why_tests_cant": "all permutations of all listings", "anchors": ["src/auv_nav/parsers/parse_gaps.py:parse_gaps", "src/auv_nav/parse.py:parse_single", "src/auv_nav/parsers/parse_interlacer.py:parse_interlacer"]}
{"id": "C254", "title": "Log files hold the messages of a command", "statement": "The log of a command holds what the file held before, the lines about version, user and host, and all messages of the command in order, also those that are not printed, up to the point where it ends or crashes, each once, and nothing of other commands; messages are printed whether or not there is a log, verbose ones exactly if asked for; the progress bar keeps its length.", "quantifier": "all histories of messages, log files and verbosity, and all points at which a program stops", "why_tests_cant": "all histories and crash points", "anchors": ["src/oplab/console.py:Console", "src/auv_nav/auv_nav.py:call_parse_data", "src/correct_images/correct_images.py:call_parse"]}
{"id": "C255", "title": "Debayering a folder of images", "statement": "debayer_folder converts every image it is given from the image as it was before the run, whatever the schedule of the workers, changes no other file and not the images it reads, and gives the same when it is run again; an image that cannot be converted stops it; a pattern stands for the same conversion as in correct_images.", "quantifier": "all folders, images, patterns and interleavings of the workers' reads and writes", "why_tests_cant": "all interleavings of the workers", "anchors": ["src/scripts/debayer_folder.py:debayer", "src/correct_images/corrections/debayer.py:debayer"]}
{"id": "C256", "title": "The images of a calibration", "statement": "A calibration uses exactly the images of the given folders that exist, each once, in the order of their paths, whatever the order of folders and listings; the pattern is the one named; the file with the times of the images is the one that matches, whatever the order of the listing.", "quantifier": "all lists of folders, contents, orders of listings, names of patterns and file patterns", "why_tests_cant": "all permutations of listings", "anchors": ["src/auv_cal/calibration.py:collect_image_files", "src/auv_cal/calibration.py:check_pattern", "src/oplab/filename_to_date.py:resolve", "src/oplab/filename_to_date.py:FilenameToDate.__init__"]}
{"id": "C257", "title": "The poses in the files of images", "statement": "Every file of images that processing writes holds the images of the camera it is named after, each with a pose from the solution it is filed under and the position of that camera on the vehicle; no camera with placed images is left out.", "quantifier": "all sets of images and cameras, formats, mounting positions, settings of the filters and numbers of position fixes", "why_tests_cant": "all combinations of cameras, formats, filters and numbers of images", "anchors": ["src/auv_nav/process.py:process", "src/auv_nav/tools/interpolate.py:interpolate_sensor_list", "src/auv_nav/localisation/ekf.py:update_camera_list", "src/auv_nav/tools/csv_tools.py:write_csv"]}
{"id": "C258", "title": "Clouds and pictures of a laser calibration", "statement": "A file with a cloud of points says how many points it holds and holds exactly the points of the line it is named after; the reduced cloud holds only points that the plane is fitted to; no plane is fitted to more points than the largest cloud size set; after every run the pictures show the detections that the run works with.", "quantifier": "all clouds, sampling results, settings, and all histories of runs on a pair of images", "why_tests_cant": "all clouds and all histories of runs with changing settings", "anchors": ["src/auv_cal/laser_calibrator.py:save_cloud", "src/auv_cal/laser_calibrator.py:LaserCalibrator.cal", "src/auv_cal/laser_calibrator.py:draw_laser", "src/auv_cal/laser_calibrator.py:get_laser_pixels_in_image_pair"]}
{"id": "C259", "title": "The figures of attenuation", "statement": "The curves of one pixel per row, on the diagonal of the image, are drawn, each in a file named after channel, column and row; every picture of gains, coefficients, means and deviations shows what its name says; the plot of all curves shows pixels spread evenly over the image, and the parameters are saved after it.", "quantifier": "all image sizes, numbers of channels and pixels", "why_tests_cant": "all image sizes and shapes", "anchors": ["src/correct_images/corrections/attenuation.py:calculate_attenuation_parameters", "src/correct_images/corrections/attenuation.py:save_attenuation_plots", "src/correct_images/corrector.py:Corrector.plot_all_attenuation_curves"]}
{"id": "C260", "title": "The filter starts where dead reckoning starts", "statement": "The first pose of the Kalman filter, reported for the vehicle's origin, is that of the first dead reckoned entry; readings of depth sensor, compass, transponder and DVL that agree with the start tell the filter exactly its own state, wherever they sit on the vehicle.", "quantifier": "all attitudes, mounting positions, velocities, turn rates and readings", "why_tests_cant": "continuum of attitudes and mounting positions", "anchors": ["src/auv_nav/process.py:process", "src/auv_nav/localisation/ekf.py:ExtendedKalmanFilter.build_state", "src/auv_nav/localisation/ekf.py:save_ekf_to_list", "src/auv_nav/tools/dvl_level_arm.py:correct_lever_arm"]}
{"id": "C261", "title": "camera.yaml is read completely or not at all", "statement": "A camera.yaml is accepted exactly if it names its system and every camera has name, type, depth, path, extension and, unless its images are in bags, a way to tell their times; the cameras are then those described, in order, with their names, different names stay apart, and a camera with the same name in mission.yaml is found.", "quantifier": "all documents, names and files of times", "why_tests_cant": "arbitrary YAML documents", "anchors": ["src/oplab/camera_system.py:CameraSystem", "src/oplab/camera_system.py:CameraEntry.__init__", "src/oplab/mission.py:CameraEntry", "src/correct_images/correct_images.py:load_configuration_and_camera_system"]}
{"id": "C262", "title": "Settings of the laser calibration take effect", "statement": "Every setting of the section laser_calibration of calibration.yaml is taken from the file or has its documented default; sections may be left out; both lasers are written exactly if two are asked for.", "quantifier": "all contents of the section", "why_tests_cant": "arbitrary YAML documents", "anchors": ["src/auv_cal/laser_calibrator.py:LaserCalibrator.__init__", "src/auv_cal/laser_calibrator.py:LaserCalibrator.cal", "src/auv_cal/calibration.py:calibrate_laser", "src/auv_cal/default_yaml/default_calibration.yaml"]}
{"id": "C263", "title": "Devices sit where mission.yaml and vehicle.yaml say", "statement": "After a mission and its vehicle are read, each sensor has the offsets of the node of vehicle.yaml that its origin in mission.yaml names, or of its default node; each camera those of the node named by its origin or else by its name; and an origin may be left out.", "quantifier": "all mission and vehicle documents", "why_tests_cant": "two arbitrary YAML documents refer to each other", "anchors": ["src/oplab/mission.py:Mission.__init__", "src/oplab/mission.py:CameraEntry.load", "src/oplab/vehicle.py:Vehicle.__init__", "src/oplab/vehicle.py:SensorOffset.load", "docs/file_format_definitions.md"]}
{"id": "C264", "title": "The overview of a parsed dive", "statement": "After parsing, the table and the history of timestamps have one entry per category and frame, with the number of all its records, their times and an update rate from its first distinct times; the overview is always drawn, and if the command ends with exit code 0 all dives were parsed.", "quantifier": "all lists of records and dives", "why_tests_cant": "arbitrary sequences of records", "anchors": ["src/auv_nav/plot/plot_parse_data.py:plot_parse_data", "src/auv_nav/plot/plot_parse_data.py:data2trace", "src/auv_nav/plot/plot_parse_data.py:print_lines", "src/auv_nav/parse.py:parse"]}
{"id": "C265", "title": "The plots of the paths of a processed dive", "statement": "After processing, auv_path.html shows each path of more than one position under its own name, and auv_path_slider.html has a slider of 40 to 80 equal steps whose frames show the camera paths and position fixes up to the time of the slider; paths only grow while it moves on and the last frame shows them whole.", "quantifier": "all lists of positions of all filters, all settings for particles, all times of the slider", "why_tests_cant": "arbitrary lists, times and settings", "anchors": ["src/auv_nav/plot/plot_process_data.py:plot_2d_deadreckoning", "src/auv_nav/plot/plot_process_data.py:make_frame", "src/auv_nav/localisation/pf.py:Particle"]}
{"id": "C266", "title": "The plots against time of a processed dive", "statement": "After processing, velocity_vs_time.html and sensor_uncertainties_plot.html show every velocity over ground and its standard deviation against its time, and leave out components that are not given; the plots of positions and orientations have lines one standard deviation above and below each value, under names that say which is which.", "quantifier": "all lists of records, with any components missing", "why_tests_cant": "arbitrary lists with any values missing", "anchors": ["src/auv_nav/plot/plot_process_data.py:create_trace", "src/auv_nav/plot/plot_process_data.py:plot_velocity_vs_time", "src/auv_nav/plot/plot_process_data.py:plot_sensor_uncertainty", "src/auv_nav/plot/plot_process_data.py:plot_position_with_std_vs_time", "src/auv_nav/plot/plot_process_data.py:plot_orientation_with_std_vs_time"]}
{"id": "C267", "title": "Virtual images of a laser line", "statement": "The generator of virtual laser images makes a pair of images for each altitude from the lowest to the highest in equal steps of the configuration; points are on the laser plane, and each point seen by both cameras is drawn in its column with a centre of brightness at its row, without removing others.", "quantifier": "all images, points, planes, altitudes and projections", "why_tests_cant": "continuous positions and arbitrary sequences of points", "anchors": ["src/scripts/laser_plane_virtual_image_generator.py:drawGaussian", "src/scripts/laser_plane_virtual_image_generator.py", "src/oplab/camera_models.py:StereoCamera.project_point"]}
{"id": "C268", "title": "Calibrations that are killed", "statement": "If auv_cal mono, stereo or laser is killed at any point and the same command is run again, the calibration folder ends up as if it had not been killed.", "quantifier": "all folders, options, cameras and points at which the program is killed", "why_tests_cant": "Every point of every run, for any number of cameras.", "anchors": ["src/auv_cal/calibration.py:calibrate_mono", "src/auv_cal/calibration.py:calibrate_stereo", "src/auv_cal/calibration.py:calibrate_laser", "src/auv_cal/calibration.py:Calibrator.mono", "src/auv_cal/calibration.py:Calibrator.stereo", "src/auv_cal/calibration.py:Calibrator.laser_imp"]}
{"id": "C269", "title": "Corrections use the navigation of the last processing run", "statement": "After any history of runs of auv_nav process on a dive, correct_images uses the camera positions that the last run wrote.", "quantifier": "all histories of runs of auv_nav process (windows, -F, output settings, killed runs) and all cameras", "why_tests_cant": "A history of runs of two commands, of any length.", "anchors": ["src/auv_nav/process.py:process", "src/auv_nav/tools/csv_tools.py:write_csv", "src/correct_images/corrector.py:Corrector.parse"]}
{"id": "C270", "title": "The plots of the filters", "statement": "The plots of the Kalman filter show each estimate at its time with its standard deviation and bounds, angles in degrees; the plot of rejected measurements has a point for each measurement that was dropped, at its time; the plot of the particle filter shows the spread of its particles.", "quantifier": "all lists of estimates, runs of the filter and measurements", "why_tests_cant": "Every estimate and measurement of runs of any length.", "anchors": ["src/auv_nav/plot/plot_process_data.py:plot_ekf_states_and_std_vs_time", "src/auv_nav/plot/plot_process_data.py:plot_velocity_with_std_vs_time", "src/auv_nav/plot/plot_process_data.py:plot_ekf_rejected_measurements", "src/auv_nav/plot/plot_process_data.py:plot_pf_uncertainty"]}
{"id": "C271", "title": "Rescaled images are as the settings say", "statement": "Every image that correct_images rescale writes belongs to a section of the settings; its pixels have the size in that section, in centimetres, unless the section asks to keep the number of pixels, in which case it has as many as before; with the settings that are shipped the pixels have the size named there.", "quantifier": "all lists of sections, folders, calibrations and tables of altitudes", "why_tests_cant": "Every image of every camera, for all settings.", "anchors": ["src/correct_images/parser.py:RescaleImage", "src/correct_images/parser.py:CameraRescale", "src/correct_images/corrections/rescale.py:rescale_camera", "src/correct_images/correct_images.py:call_rescale", "docs/correct_images.md"]}
{"id": "C272", "title": "The tables of the sensors show every measurement", "statement": "auv_nav process leaves one table for each sensor in csv/sensor_values_and_uncertainties; it shows every measurement of the dive in the chosen time, in order, each value and its uncertainty under its name, whatever the rest of the run does meanwhile and however it ends.", "quantifier": "all lists of measurements, schedules of the threads, further values the run stores meanwhile, moments at which it is killed", "why_tests_cant": "The tables are written by threads while the main thread changes the same measurements.", "anchors": ["src/auv_nav/process.py:process", "src/auv_nav/tools/csv_tools.py:write_csv", "src/auv_nav/sensors.py:BodyVelocity.to_csv_row", "src/auv_nav/sensors.py:InertialVelocity.to_csv_row", "src/auv_nav/sensors.py:Altitude.to_csv_row", "src/auv_nav/sensors.py:Usbl.to_csv_row"]}
{"id": "C273", "title": "Corrected images have the brightness and contrast asked for", "statement": "After correct_images parse and process on the same images, the intensities of every pixel and channel have over the images the mean `brightness` and the deviation `contrast`, in per cent.", "quantifier": "all images, altitudes, settings", "why_tests_cant": "Concerns the statistics of all images of any number.", "anchors": ["src/correct_images/corrector.py:Corrector.generate_attenuation_correction_parameters", "src/correct_images/corrector.py:Corrector.process_image", "src/correct_images/corrections/pixel_stat.py:pixel_stat", "src/correct_images/tools/numerical.py:RunningMeanStd", "src/correct_images/corrections/gamma.py:gamma_correct", "docs/correct_images.md"]}
{"id": "C274", "title": "When a stereo calibration is found", "statement": "Eight pairs of views that differ from each other are enough for a stereo calibration; it is computed from at least eight of them and its error is at most that of the calibration from all.", "quantifier": "all pairs of views, solvers, epipolar errors", "why_tests_cant": "Concerns all solvers, errors and numbers of views, and up to five iterations.", "anchors": ["src/auv_cal/camera_calibrator.py:StereoCalibrator.cal_from_json", "src/auv_cal/camera_calibrator.py:StereoCalibrator.cal_fromcorners", "src/auv_cal/camera_calibrator.py:epipolar_error_from_images"]}
{"id": "C275", "title": "Folders of corrected images over many runs", "statement": "After correct_images process the folder of corrected images holds the images of this run, the list of them and nothing else, whatever runs, killed or not, were made before; a run that was killed can be repeated.", "quantifier": "all histories of runs, orders of the parallel tasks and points at which runs are killed", "why_tests_cant": "Concerns all histories, schedules and crash points.", "anchors": ["src/correct_images/corrector.py:Corrector.process_correction", "src/correct_images/corrector.py:Corrector.create_output_directories", "src/correct_images/tools/file_handlers.py:write_output_image"]}
{"id": "C276", "title": "Delayed, turned and shifted dives", "statement": "If all measurements of a dive are made later, with all headings turned by the same angle and all position fixes turned and shifted alike, then auv_nav process gives the same path and camera poses, turned and shifted by exactly as much; the compass passing 360 degrees makes no difference.", "quantifier": "all dives, delays, turns, shifts and mountings", "why_tests_cant": "Relates the results of infinitely many pairs of dives.", "anchors": ["src/auv_nav/process.py:process", "src/auv_nav/localisation/dead_reckoning.py:dead_reckoning", "src/auv_nav/localisation/usbl_offset.py:usbl_offset", "src/auv_nav/tools/interpolate.py:interpolate_sensor_list", "src/auv_nav/tools/dvl_level_arm.py:correct_lever_arm", "src/auv_nav/tools/body_to_inertial.py:body_to_inertial"]}
{"id": "C277", "title": "Shifted and delayed dives in the Kalman filter", "statement": "If all measurements of a dive are made later, and all fixes and depths are shifted by the same distance (another reference position, another epoch), the Kalman filter and its smoother give the same path, shifted and delayed by exactly as much, with the same uncertainties and the same measurements rejected.", "quantifier": "all dives, settings, initial states and covariances, delays and shifts", "why_tests_cant": "Relates the results of infinitely many pairs of dives of any length.", "anchors": ["src/auv_nav/localisation/ekf.py:ExtendedKalmanFilter.run", "src/auv_nav/localisation/ekf.py:EkfImpl.predict", "src/auv_nav/localisation/ekf.py:EkfImpl.correct", "src/auv_nav/localisation/ekf.py:EkfImpl.smooth", "src/auv_nav/localisation/ekf.py:Measurement.from_usbl"]}
{"id": "C278", "title": "Moved dives in the particle filter", "statement": "If a dive is made later, at another place, depth and heading (all measurements being moved alike), the particle filter with the same random draws gives the same path, moved and delayed by exactly as much, with the particles drawn again after the same fixes.", "quantifier": "all dives, settings, numbers of particles, random draws, delays, shifts and turns", "why_tests_cant": "Relates the results of infinitely many pairs of dives, for every sequence of random numbers.", "anchors": ["src/auv_nav/localisation/pf.py:run_particle_filter", "src/auv_nav/localisation/pf.py:DeadReckoningMovementModel.propagate", "src/auv_nav/localisation/pf.py:UsblObservationModel.measure", "src/auv_nav/localisation/pf.py:ParticleFilter.measure", "src/auv_nav/localisation/pf.py:ParticleFilter.resample"]}
{"id": "C279", "title": "Exposure and order of the images do not matter", "statement": "Corrected images are the same if all images of the dive had been taken with another exposure or another offset of the sensor, and do not depend on the order of the images or on how often each is listed.", "quantifier": "all intensities of a pixel in any number of images, exposures, offsets, orders, targets", "why_tests_cant": "Compares the results of infinitely many pairs of dives.", "anchors": ["src/correct_images/corrector.py:Corrector.generate_attenuation_correction_parameters", "src/correct_images/corrections/pixel_stat.py:pixel_stat", "src/correct_images/tools/numerical.py:running_mean_std", "src/correct_images/tools/numerical.py:RunningMeanStd"]}
{"id": "C280", "title": "A drawing of a folder shows all that is in it", "statement": "Showing the tree of a folder prints every entry down to the greatest depth exactly once, folders before their content, indented by its depth, and nothing else.", "quantifier": "all trees of folders, all greatest depths", "why_tests_cant": "Trees have any shape and size.", "anchors": ["src/auv_nav/tools/displayable_path.py:DisplayablePath.make_tree", "src/auv_nav/tools/displayable_path.py:DisplayablePath.show_tree", "src/auv_nav/tools/displayable_path.py:DisplayablePath.displayable"]}
{"id": "C281", "title": "Matrices, quaternions and angles describe the same rotations", "statement": "For each of the 24 names of axes the matrix and the quaternion of three angles turn a vector about the named axes in the named order; the product of quaternions turns by one after the other and the inverse undoes it; rotations about an axis and mirrors are those of the textbook; interpolation between quaternions has constant speed.", "quantifier": "all angles, axes, points, quaternions, fractions and names", "why_tests_cant": "Angles and quaternions are real numbers.", "anchors": ["src/auv_nav/tools/transformations.py:euler_matrix", "src/auv_nav/tools/transformations.py:quaternion_from_euler", "src/auv_nav/tools/transformations.py:quaternion_matrix", "src/auv_nav/tools/transformations.py:quaternion_multiply", "src/auv_nav/tools/transformations.py:quaternion_inverse", "src/auv_nav/tools/transformations.py:quaternion_about_axis", "src/auv_nav/tools/transformations.py:quaternion_slerp", "src/auv_nav/tools/transformations.py:rotation_matrix", "src/auv_nav/tools/transformations.py:reflection_matrix"]}
{"id": "C282", "title": "Part of a dive is processed as in the whole dive", "statement": "Processing only the part of a dive between a start and a finish time gives, inside this part, the attitudes, velocities, altitudes and depths that processing the whole dive gives, and the same path by dead reckoning apart from one common shift.", "quantifier": "all dives, start and finish times, sensor positions and USBL fixes", "why_tests_cant": "The record of a dive has any length and the part can start and finish anywhere.", "anchors": ["src/auv_nav/process.py:process", "src/auv_nav/tools/dvl_level_arm.py:compute_angular_speeds", "src/auv_nav/localisation/dead_reckoning.py:dead_reckoning", "src/auv_nav/tools/interpolation.py:interpolate"]}
{"id": "C283", "title": "The pose of an image does not depend on the other images", "statement": "The pose given to an image or to any other measurement of a sensor depends on the path of the vehicle and on the time of the measurement, not on which other measurements there are; processing part of a dive places the images as processing the whole dive does, apart from one common shift.", "quantifier": "all lists of times, all paths, parts of dives and USBL fixes", "why_tests_cant": "Which other images there are is arbitrary, and the search for the pose goes on from where it ended for the image before.", "anchors": ["src/auv_nav/tools/interpolation.py:interpolate_sensor_list", "src/auv_nav/process.py:process"]}
{"id": "C284", "title": "The USBL filter does not depend on where and when the dive was", "statement": "If a dive is turned about the vertical, moved in the plane and in depth, and happens at another time, the USBL filter keeps the same fixes as before.", "quantifier": "all lists of fixes and depths, all turns, moves and delays, all settings of the filter", "why_tests_cant": "Turns, moves and lists of fixes are arbitrary.", "anchors": ["src/auv_nav/localisation/usbl_filter.py:usbl_filter", "src/auv_nav/localisation/usbl_filter.py:distance_filter", "src/auv_nav/localisation/usbl_filter.py:depth_filter"]}
{"id": "C285", "title": "More permissive settings of the USBL filter keep at least the same fixes", "statement": "A larger highest speed of the vehicle or a larger factor of the standard deviations never makes the USBL filter lose a fix that it kept before.", "quantifier": "all lists of fixes and depths, all speeds and factors", "why_tests_cant": "A fix that is newly let in by one filter changes what the next filter sees, for some lists only.", "anchors": ["src/auv_nav/localisation/usbl_filter.py:usbl_filter"]}
{"id": "C286", "title": "Projections, scaling and shear do what geometry says", "statement": "A projection takes every point to the point of the plane that lies straight below it, in the given direction, or on the line through the perspective point; the projection that keeps depth followed by the orthogonal one is the perspective one; scaling about a point changes lengths by the factor, in all directions or in one only; shear moves points along its direction in proportion to their height above the plane, which they keep.", "quantifier": "all planes, directions, points, factors and angles", "why_tests_cant": "Planes, directions and points are arbitrary; there is no finite set of them that settles the formulas.", "anchors": ["src/auv_nav/tools/transformations.py:projection_matrix", "src/auv_nav/tools/transformations.py:scale_matrix", "src/auv_nav/tools/transformations.py:shear_matrix", "src/auv_nav/tools/transformations.py:concatenate_matrices"]}
{"id": "C287", "title": "Points inside a view volume get coordinates from -1 to 1, others do not", "statement": "The matrix of a view volume, a box or a pyramid cut at two distances, gives normalised coordinates from -1 to 1 to exactly the points inside the volume; volumes whose sides are not in order are refused.", "quantifier": "all volumes and points", "why_tests_cant": "Volumes and points are arbitrary reals; points behind the tip of the pyramid and on its sides are easily missed.", "anchors": ["src/auv_nav/tools/transformations.py:clip_matrix"]}
{"id": "C288", "title": "Trackball points and random quaternions have length 1", "statement": "Points of the window are taken to the near half of the unit sphere, and those inside the circle stay where they are in the window; a point brought to the arc of an axis is on the near half of the sphere and across the axis; the chosen axis is the one with the nearest arc; random quaternions have length 1 whatever is drawn.", "quantifier": "all points, circles, axes and random draws", "why_tests_cant": "Points, axes and draws are arbitrary reals.", "anchors": ["src/auv_nav/tools/transformations.py:arcball_map_to_sphere", "src/auv_nav/tools/transformations.py:arcball_constrain_to_axis", "src/auv_nav/tools/transformations.py:arcball_nearest_axis", "src/auv_nav/tools/transformations.py:random_quaternion"]}
{"id": "C289", "title": "The matrix of a cell has the lengths and angles asked for", "statement": "The columns of the matrix made from three lengths and three angles in degrees are edges with exactly these lengths and with these angles between them; angles are refused only if no three edges have them.", "quantifier": "all lengths and angles", "why_tests_cant": "Lengths and angles are arbitrary reals.", "anchors": ["src/auv_nav/tools/transformations.py:orthogonalization_matrix"]}
