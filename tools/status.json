{
 "C02": {
  "status": "proved",
  "note": "Derivatives exact outside the clamp; inside the clamp the reported derivative is proved wrong (C02_clamped_derivative_wrong)."
 },
 "C04": {
  "status": "proved",
  "note": "Window counts need incremental time stamps (negation C04_window_needs_incremental)."
 },
 "C05": {
  "status": "proved",
  "note": "Ranges below 1 break the bound (C05_needs_positive_range)."
 },
 "C08": {
  "status": "proved",
  "note": "The Jacobian query is the one exception; C08_finding_getJ_overwrites is the concrete violation."
 },
 "C10": {
  "status": "proved",
  "note": "C10_finding_flag_without_warp: the flag answers true although no warp is available."
 },
 "C11": {
  "status": "proved",
  "note": "C11_finding_boxPlus_stale: the state increment keeps a stale warp."
 },
 "C14": {
  "status": "proved",
  "note": "C14_finding_nonfinite_success: success with a NaN bearing when the normal matrix is singular."
 },
 "C15": {
  "status": "proved",
  "note": "C15_finding_ds_*: jump and lost injectivity of the double-sphere centre case."
 },
 "C18": {
  "status": "proved",
  "note": "C18_finding_requireMax_ignores_penalty shows the feature tracker's documented spacing does not hold."
 },
 "C20": {
  "status": "proved",
  "note": "Findings: negative penalty leaves the bucket vector; addBestCandidatesNew writes to slot -1 on a full set."
 },
 "C22": {
  "status": "proved",
  "note": "C22_finding_warp_lost: a second level transform drops the warp."
 },
 "C23": {
  "status": "proved",
  "note": "C23_finding_odd_sizes, C23_finding_opencv_odd: the offset is wrong for odd sizes, rows and columns are swapped."
 },
 "C25": {
  "status": "proved",
  "note": "C25_finding_opencv_odd: with the OpenCV pyramid, an odd size and a contracting warp the extraction reads outside the image."
 },
 "C27": {
  "status": "proved",
  "note": "C27_finding_stale_border: extraction without border leaves the old score; the documentation calls s_ the smaller eigenvalue but it is the sum."
 },
 "C30": {
  "status": "proved",
  "note": "C30_finding_gain_without_offset: estimating the gain without the offset does not remove a pure gain (regression uses the with-offset formula)."
 },
 "C31": {
  "status": "proved",
  "note": "The linear solver (Eigen SVD) is a parameter; NaN answers are an explicit outcome."
 },
 "C67": {
  "status": "proved",
  "note": "With a warp the in-frame test converts corner positions to int, which has to be defined (hypothesis)."
 },
 "C68": {
  "status": "proved",
  "note": "Eigen's QR contract (orthogonal Q, A P = Q R) is the hypothesis."
 },
 "C46": {
  "status": "proved",
  "note": "For the same sequence of prediction steps; LWF's Kalman equations are modelled as documented (LWF is not in the repository), merging or splitting of inertial measurements around update times is not. The recorded pose (display only) and the pixel caches are excluded."
 },
 "C77": {
  "status": "proved",
  "note": "LWF's update P - K S K^T and prediction F P F^T + G Q G^T modelled as documented, over the reals. C77_pixels: the same for the whole filter from pixels, with the image update, its Kalman update, feature management and resets. C77_iterated: with the iterated update of the direct method. C77_poses and C77_poses_iterated: together with pose measurements, the noise of each of which is a covariance."
 },
 "C78": {
  "status": "proved",
  "note": "Over the reals; LWF's equations as documented. Image corrections and feature management are arbitrary functions satisfying the stated conditions. C78_life: the filter from pixels with measurements, poses, images and resets is processed to the end; C78_life_steps and C78_life_steps_iterated: between the inputs every filter step has a result, and C78_life_zero_velocity, C78_life_zero_velocity_iterated: so has the zero-velocity update at the end of an image. C78_feature: a single correction by a feature (the update with one candidate and one iteration), in any proper state, has a result once innovation and Jacobian could be formed from the image; the iterated one may be without result (singular candidate covariance), the feature then counts as failed."
 },
 "C79": {
  "status": "proved",
  "note": "Over the reals. Points outside the claim: circle of the special-cased image centre (equidistant, double sphere), clamped inverse depth. The two exceptions are theorems (C79_linearisation, C71_finding_rotation_sign; C79_finding_behind)."
 },
 "C80": {
  "status": "proved",
  "note": "Over the reals; LWF's update equations and Eigen's QR contract as documented; isotropic intensity noise as configured by the code; outlier tests accept."
 },
 "C81": {
  "status": "proved",
  "note": "Normalisation (kindr fix) as documented, over the reals. C81_pixels: the same for the whole filter from pixels, with the image update, its Kalman update, feature management and resets. C81_iterated: with the iterated update of the direct method. C77_poses and C77_poses_iterated say it together with pose measurements."
 },
 "C82": {
  "status": "proved",
  "note": "The search for the match in the other camera is a parameter; first order propagation of the variance; over the reals."
 },
 "C83": {
  "status": "proved",
  "note": "YAML parsing is the list of entries read; exceptions of yaml-cpp are an explicit failure; ds within the domain of the model."
 },
 "C84": {
  "status": "proved",
  "note": "OpenCV's pyramid and corner detector, uninitialised memory and the linear solver are arbitrary parameters; drawing and the image conversion are not modelled; over the reals."
 },
 "C85": {
  "status": "proved",
  "note": "Property handlers are LWF's: a register maps variables to keys, reading assigns and fails on missing keys (assumed, see DESIGN.md). Scalar settings registered once under their own key are not listed."
 },
 "C86": {
  "status": "proved",
  "note": "LWF's updateSafe is an arbitrary function; C86_records assumes it never moves the estimate back in time. Time stamps of the records and file handling are not modelled."
 },
 "C87": {
  "status": "proved",
  "note": "The covariance handed to the filter; its use by LWF is outside the repository."
 },
 "C88": {
  "status": "proved",
  "note": "Per call site, with the coordinates passed in arbitrary; bounds on pixels, warps and solver steps are hypotheses. Drawing code is not modelled."
 },
 "C89": {
  "status": "proved",
  "note": "The filter is an arbitrary function, assumed not to move the estimate back in time except at restarts. Different frame names are assumed; the default names are proved different."
 },
 "C90": {
  "status": "proved",
  "note": "Canvases are contiguous, as created by the code. Text, rectangles and lines drawn by OpenCV are not modelled."
 },
 "C91": {
  "status": "proved",
  "note": "OpenGL is modelled by what its calls read and by its documented clip volume, culling rule and unpacking of rows; kindr's setFromVectors and Euler angles are parameters with their documented meaning. float is real."
 },
 "C92": {
  "status": "proved",
  "note": "Uses the models of the scene (C91), of patch drawing (C90) and of the coordinates (C08); the picture of a feature assumes an even patch size and a side that is a multiple of four pixels, as configured. float and double are real."
 },
 "C93": {
  "status": "proved",
  "note": "For the filter state and the image update, in the model of C33-C37 and C69-C70.  The image processing functions are parameters assumed to look at the patches of existing features only.  LWF's reset copies the initial filter state (trusted, LWF is not in the repository)."
 },
 "C94": {
  "status": "proved",
  "note": "For the image update on actual images (all image accesses, alignment, innovation, Jacobian, outlier check, detection, initialisation).  LWF's filter update is an arbitrary function of the callbacks it is given, Eigen's solvers of their arguments, OpenCV's corners of the image.  The bearing left by a failed back-projection of a pixel is a fixed unknown function of the pixel, not of the memory; c_J_, which keeps an old value when the projection fails, is part of the state."
 },
 "C95": {
  "status": "proved",
  "note": "Image processing, feature management and the zero velocity decision are arbitrary functions of everything but position and attitude (ImgUpdate.hpp reads these only to draw the horizon, line 1102). External pose measurements are excluded: they do refer to the world frame. Gravity is vertical (ImuPrediction.hpp:53, 59). C95_pixels drops the assumption about image processing: the whole filter from pixels, with the image update, its Kalman update, velocity updates and resets. C95_iterated: with the iterated update of the direct method, for logarithms of rotations along the axis (logTurns_axis)."
 },
 "C96": {
  "status": "proved",
  "note": "Over the reals: with doubles large stamps lose resolution. LWF's measurement time line is not in the repository: the node's calls and the filter's steps are proved separately. The order in which the set of new features is iterated (std::unordered_set) is any fixed function of the set that lists all its elements."
 },
 "C97": {
  "status": "proved",
  "note": "External pose measurements are excluded: they do observe position and heading. Image processing and feature management may look at the estimate and at all variances but those of position and attitude. C97_pixels: the same for the whole filter from pixels. C97_iterated: with the iterated update of the direct method."
 },
 "C98": {
  "status": "proved",
  "note": "The iteration order is any function of the set. Finding: the order of the sets of candidates of equal rank does matter, it decides which candidate becomes a feature."
 },
 "C99": {
  "status": "proved",
  "note": "No grey value is cut off, and the corners OpenCV finds are assumed the same in both images. Findings: needs the intensity offset; a change of contrast does matter, even with the intensity sqew enabled."
 },
 "C100": {
  "status": "proved",
  "note": "Single candidate and single iteration of the update (as in C77). Zero-velocity updates, which use the velocity, are off; C95_pixels and C97_pixels allow them. With a single correction; the iterated update is the exception (C107_finding_unseen)."
 },
 "C101": {
  "status": "proved",
  "note": "Assumes what the frame-independence needs of the configuration: one variance for the three position components of the pose noise, one for the three components of the estimated position of the frame, an outlier test of the whole innovation (LWF's Mahalanobis test, proved to qualify), and different additional poses for frame and body."
 },
 "C102": {
  "status": "proved",
  "note": "Single candidate, single iteration of the Kalman update (as in Model/ImgEkf.lean). C102_blind needs the configuration that C20 needs (at least one bucket, penalties not negative) and identifiers below the counter, which C16 shows is always the case."
 },
 "C103": {
  "status": "proved",
  "note": "The image processing and feature management are arbitrary functions of the (physical) estimate, as in Model/Filter.lean. Finding: the covariance of the camera's rate output depends on the axes, because the gyroscope noise is added without turning it (C103_finding_camera_rate)."
 },
 "C104": {
  "status": "proved",
  "note": "Exact arithmetic; the solver is an arbitrary function with the least-squares contract of Spec.SolvesLeastSquares. Even patch sizes (the alignment is only used with even ones; odd ones round the half size). C104_untextured shows that the texture condition is sharp."
 },
 "C105": {
  "status": "proved",
  "note": "IMU, velocity, image and reset inputs in any order (C105_pixels); pose updates one at a time (C105_pose); outputs (C105_outputs). The covariance in the message of the mounting is the exception (C105_finding_message). With a single correction; the iterated update is the exception (C107_finding_unseen)."
 },
 "C106": {
  "status": "proved",
  "note": "About the filter of Model/Filter.lean: the image processing is any function of what is in use that gives corrections for features in use. C106_run speaks about pairs of runs that are both defined (an unused slot without a readable bearing makes a prediction undefined), C106_proper shows that proper filters are."
 },
 "C107": {
  "status": "proved",
  "note": "About LWF's iterated update as published (the submodule is empty) with the callbacks of the image update; for arbitrary callbacks unless they are named. C107_match: with a rejection threshold. The two findings are the exceptions in the statement."
 },
 "C108": {
  "status": "proved",
  "note": "kindr's conversion from quaternions and its mapping from angular velocities to angle rates as documented, over the reals. The vertical axis is the exception (C108_finding_vertical)."
 },
 "C109": {
  "status": "proved",
  "note": "For LWF's outlier test of a whole innovation (all updates of rovio have a single group of rows). C109_known holds for every outlier test. The bound is attained (example)."
 },
 "C110": {
  "status": "proved",
  "note": "C110_rest for a filter whose frames are aligned already (the first pose of an aligning pose update moves the frames, see C44). C110_unrelated for every update except that first pose, accepted or rejected. C110_image for matched coordinates and for the direct method; C110_seen and C110_unmoved_image say what this means for the pixels with the direct method and a plain or decreasing gradient weighting, given that the QR decomposition (Eigen) reduces equations without error to equations without error. Equality is over the reals. C110_life and C110_unmoved_life: the filter with pixels (single candidate and iteration per feature and image, no resets); cameras give every pixel a direction; that the patches were taken from images is a hypothesis on the states in which images arrive. C110_image_iterated, C110_life_iterated and C110_unmoved_life_iterated: the same with the iterated update of the direct method, any number of iterations and a single starting point (alignMaxUniSample zero), given that the logarithms of the libraries give no difference between equal elements. C110_life_poses and C110_life_poses_iterated: with measured poses in between, for frames that are aligned already or never. C110_life_constant_pose and C110_life_constant_pose_iterated: for frames that are aligned by the first of the poses; a step without result (a singular matrix) leaves everything as it is."
 },
 "C111": {
  "status": "proved",
  "note": "The numbers handed to OpenCV; what cv::ellipse2Poly, cv::fillPoly and cv::ellipse make of them is trusted. Finding: undefined beyond 60 degrees of elevation (C111_finding_steep)."
 },
 "C112": {
  "status": "proved",
  "note": "OpenCV's memory management as documented. How LWF stores measurements is not part of the repository: assigning is safe, copy constructing is not (C112_finding_copy_constructed)."
 },
 "C113": {
  "status": "proved",
  "note": "Addresses only; objects linked from outside are assumed to outlive the slot, as the elements of the state of the same filter state do."
 },
 "C44": {
  "status": "proved",
  "note": "C44_first_absorbed: the whole update with the first pose in the filter model (LWF's Kalman equations as documented); C44_life: the stored alignment over lives of the filter from pixels with resets. C44_life_aligned: what the stored alignment is, if the update with the first pose has a result (its matrix is not singular)."
 },
 "C114": {
  "status": "proved",
  "note": "The segments handed to cv::line; clipping and rounding are OpenCV's. To first order the outline is the parallelogram of C114_covers (C114_first_order); the outline itself is the projection of the bearings. Finding: corners behind the camera (C114_finding_behind)."
 },
 "C115": {
  "status": "proved",
  "note": "Colours, labels and frames; cv::rectangle is taken to colour the rim of the rectangle, the number written into the first column of the sheet is left out. What LWF leaves behind (success, convergence, outlier, distance) is arbitrary. Finding: the label for a large intensity error is given for other reasons as well (C115_finding_label)."
 }
}