# Formal model of ethz-asl/rovio in Lean 4 — design

## Trusted base
* Lean 4.33.0 kernel and Mathlib.  No own axioms, no `sorry`, no `native_decide`/`bv_decide`.
  Every property theorem may depend only on `propext`, `Classical.choice`, `Quot.sound`.
* The faithfulness of the definitions in `lean/Verif/Model/*.lean` to the C++ source; each definition
  cites file and lines, and states its simplifications.
* General simplifications: `double`/`float` are modelled by exact real numbers (no rounding, overflow,
  NaN, unless a module says otherwise); `int` by unbounded integers; printing is ignored.
  Undefined behaviour (out-of-range index, null pointer) is a distinct outcome (`none`), never a default value.
* Not in the repository and therefore only assumed: lightweight_filtering (empty submodule: Kalman
  algebra, measurement queues, `NormalVectorElement`), kindr quaternions (modelled as Hamilton
  quaternions acting actively, `boxPlus` = left multiplication with the exponential), OpenCV, ROS, Eigen.

## Layout
* `Verif/Model/X.lean` — the model of the code, with citations.
* `Verif/Spec/*.lean` where a specification needs vocabulary of its own, otherwise the
  specification is inline in the theorem statement.
* `Verif/Lemmas/X.lean` — helper lemmas.
* `Verif/Props/X.lean` — the property theorems with a non-vacuity `example` beside each.

## Plan per property
| id | what is modelled | how it is proved |
|----|------------------|------------------|
| C01-C03 | FeatureDistance.cpp completely, over the reals | case split per type, inverse functions of exp/sinh, `HasDerivAt`; negation inside the clamp |
| C04-C07 | FeatureStatistics with its maps, arbitrary op histories | induction over histories against a ghost list of past statuses |
| C08-C11 | FeatureCoordinates as a state machine with lazy caches over an abstract camera | invariants by induction over ops |
| C12-C15 | Camera.cpp: 3 distortion models, projection, Gauss-Newton back-projection | field arithmetic, `HasDerivAt`, induction on iterations |
| C16-C20 | FeatureSetManager; addBestCandidates with an arbitrary (adversarial) hash order and explicit UB | loop invariants |
| C21-C23 | ImagePyramid | arithmetic on pixels and level transforms |
| C24-C28 | Patch, MultilevelPatch, reads as `Option` | convexity + floor arithmetic; Cauchy-Schwarz |
| C29-C32 | MultilevelPatchAlignment weighting, equations, iteration skeleton with the linear solver abstracted | real arithmetic, induction on iterations |
| C33-C39 | ImgUpdate control flow as state machines with oracle outcomes | well-founded induction, invariants |
| C40-C51 | rigid-body geometry: MultiCamera, outputs, Pose/Velocity/ZeroVelocity updates, ImuPrediction on explicit vectors and quaternions | ring identities, directional derivatives |
| C46 | covariance recursions with the standard Kalman algebra assumed for LWF | block-matrix invariant by induction over histories |
| C52-C53, C59 | FilterState covariance reset, median, accelerometer initialisation | matrix algebra, order statistics |
| C54-C57 | RovioNode message handling and serialisation | invariants over all message sequences |
| C58, C60 | extrinsics selection, triangulation | case split, vector algebra |
| C61-C64 | depth uncertainty, pixel covariance axes, score average, corner candidates | trigonometry, eigenvalue algebra, induction over lists |
| C65-C68 | alignment weights, equations, bounds, reduced equations (Eigen's solver and QR as parameters with their contracts) | `HasDerivAt`, invariants, linear algebra |
| C69-C70 | reference patch refresh and acceptance of measurements in ImgUpdate | case analysis of the control flow |
| C71-C72 | FeatureOutput between cameras, recorded pose | directional derivatives |
| C73-C74 | platform kinematics and warp transport of the prediction | curves in the time step, `HasDerivAt` |
| C75-C76 | covariance arrays of the messages, readable feature output | index arithmetic, quadratic forms |
| C77-C78 | whole filter runs: predictions, velocity, zero velocity, image and pose updates, feature management | Joseph form, invariants by induction over runs; from pixels, with poses and resets, every life is processed to the end (`C78_life`, from C35) and the next filter step always has a result (`C78_life_steps`, `Spec/LifeLive.lean`: rotations and directions of all slots as an invariant of image update and filter steps, covariance from C77); the zero-velocity update at the end of an image has a result whenever it is due (`C78_life_zero_velocity`: the same image with that update switched off, from C38, leaves a state that C78_life_steps holds of); a single correction by a feature has a result once its equations could be formed (`C78_feature`) |
| C79 | reprojection and direct innovation of the image update with Jacobians, pixel output; the three callbacks of the assembled filter (Props/Assembled) | chain rule over C13 and C71; the callbacks by rewriting them to the single functions |
| C80 | direct image correction in the filter, reduced and full patch equations | push-through identity, normal equations of C68 |
| C81 | normalisation after predictions and updates | case analysis of the steps |
| C82 | initialisation of new features with stereo triangulation, match as a parameter | case analysis, C02 and C52 and C60, permutation of the visits |
| C83 | loading of calibrations, refreshProperties, start of the node | published models in Spec/Calibration.lean, computation |
| C84 | the feature tracker node, whole image callbacks | composition of C17, C25, C67, invariant over all image sequences |
| C85 | registration of settings in the constructors, reading of the info file | each register entry evolves by itself, case analysis over the variables |
| C86 | loop of the bag loader over node callbacks, abstract filter queues, publishing condition, recording, reset trigger | simulation of the live run, invariants over the outputs |
| C87 | noise member of the image update over histories of settings and measurements | induction over the history |
| C88 | every place of the image update that reads pixels (motion detection, matching, direct innovation, outlier check, tracking verdict, new patches, detection, stereo matching), on the pyramid model; undefined behaviour is `none` | totality of each call from bounds on pixels, warps, seeds and solver steps; invariants of the alignment loops |
| C89 | `updateAndPublish` with headers, frames, topics and geometric contents; histories of callbacks with an arbitrary filter and changing subscribers | characterisation of the transforms as a tree (all look-ups), membership of messages, induction over histories |
| C90 | the pointer arithmetic of `drawPatch`/`drawMultilevelPatch` on byte canvases, the debugging picture of the image update, the textures of the 3D view, the tracker's picture | write lists with offsets in range, last write wins, cells disjoint; induction over lists of drawings |
| C91 | `SceneObject`, `Scene` and both shaders: vertex and index lists, buffers, matrices, drawing, keys, mouse, `setView`, `setYDown` | invariant over sequences of operations (buffers current, indices in range); matrix algebra; invariant over event histories; nearest-grid-point argument for `setYDown` |
| C92 | `RovioScene`: constructor, `initScene`, `drawScene` on the models of the scene, of the coordinates with their caches and of the drawing of patches | loop invariants over features and cameras (vertices so far, pictures so far, caches related), invariant of the display over histories of drawings |
| C93 | assignment of filter states as written (patches are not assigned), reset, life of the image update with resets | relational invariant (all equal but the patches of free slots) through every function of the image update |
| C94 | the image update with the image accesses of C88, the measurement equations of C79 and the initialisation of features of C84 put together; contents of scratch memory an arbitrary function of the state | relational: every image function gives the same result whatever its temporaries held, for coordinates that agree in what is valid and patches that agree in what was written; then as C93 |
| C95 | the filter steps of C43/C78; a change of the world frame (turn about the vertical, shift of the origin) acts on state and covariance | relational: the prediction, its Jacobians, every correction and the feature management commute with the change of frame (rotation of increments, rotation invariant noise, measurement Jacobians without world columns); induction over the run |
| C96 | the whole image update of C94 and the node of C54 with all stamps moved by a constant | relational: a correspondence of filter states that shifts times and statistics is kept by every function of the update (`Spec/Sim.lean`, `Lemmas/Sim.lean`); induction over the run |
| C97 | the filter steps of C43/C78 with two initial covariances that differ by unobservable errors (position, heading) | relational: measurement Jacobians do not see the errors, the prediction maps them to errors of the same kind; the run is that of the filter without them, whose covariance stays positive semi-definite (C77); induction over the run |
| C98 | the assembled image update of C94 with two iteration orders of the set of new features | the initialisation of a feature reads and writes only that feature's distance and covariance block, so two of them commute; permutation invariance of the loop, lifted to the image update and to a run; finding for the other hash sets |
| C99 | the assembled image update of C94 with two sequences of images that differ in brightness, another offset for every image and camera (grey values not cut off; the corners OpenCV finds assumed the same) | simulation relation on images, patches and filter states; extraction, gradients, scores, regression, matching error and acceptance tests preserve it; induction over the history; the half sampling of the pyramid preserves it |
| C100 | the assembled image update of C94 with the Kalman update of C77 in place of the open filter update (`Model/ImgEkf.lean`): a filter from pixels to estimate and covariance | relational: two filters that agree in features, mounting and their covariance; the callbacks of the update read nothing else and their Jacobian vanishes elsewhere, so innovation covariance, gain rows of features and mounting, and outlier test agree. The same simulation with `moved by a change of frame` and `with additional uncertainty` as relations gives C95 and C97 from pixels |
| C101 | the filter of C77 with pose updates (`Model/Filter.lean`, `Model/PoseUpdate.lean`), with feedback of the poses on the odometry | relational, by induction over the run: a change of the external frame multiplies innovation and noise by an orthogonal matrix and the columns of the estimated frame position by another one, so gain, corrected covariance and outlier test correspond. Before the first pose the two filters agree up to the pose of the frame, which nothing reads; the initial alignment overwrites it |
| C102 | the filter from pixels (`Model/ImgFull.lean`, `Model/ImgEkf.lean`) and the filter with an arbitrary image processing (`Model/Filter.lean`) | invariant of the scan, of the update loop and of the feature management (`Post`): the estimate is reached by corrections listed with their visits. For images without matches a second invariant (`Kept`) with the identifiers: what survives is untouched. The refinement (`C102_life`) is a simulation: each input becomes steps of `Model/Filter.lean` |
| C103 | the whole filter (`Model/Filter.lean`) with another orientation of the IMU; `Spec/ImuFrame.lean` says how measurements, calibration, estimate and covariance are converted | simulation by `Moved`: every Jacobian is linear (`IsLin`), so its matrix is determined by its action, and the action on turned errors is the turned (or same) result; corrections with `H' T = H` or `H' T = D H` give the turned correction. Noise that prefers an axis is excluded. Finding: the camera output's rate covariance depends on the axes |
| C104 | `Align.align2D`, `align2DAdaptive` on pyramids built from an image; `Spec/Unmoved.lean` says what a least-squares solver with a rank check answers (assumed of Eigen's SVD, shown satisfiable by `leastSquares_exists`) and what texture in two directions is | the rows of the equations are computed from the patch gradients; texture gives full column rank, identical (or affinely brighter) intensities give a zero right-hand side, so the step is zero; the adaptive version then has a seed with zero error, and the best seed has zero error too (`C28_zero_iff`) |
| C105 | the whole filter from pixels (`Model/ImgEkf.lean`), the pose update and the outputs, without online calibration; `Spec/Mounting.lean` says which filters differ in the estimated mounting only | simulation as for C100: the Jacobians of prediction, updates and outputs have no columns for the mounting, so gains, corrections and covariance of everything else are the same |
| C106 | the filter (`Model/Filter.lean`) with any image processing that decides from the features in use; `Spec/Slots.lean` says which slots are in use and which filters differ in the others only | induction over the run: rows of what is in use have no entries for the other slots in any Jacobian; a slot that comes into use gets new rows; C78 makes both runs defined |
| C107 | LWF's iterated update with several starting points around the callbacks of the image update (`Model/ImgIekf.lean`); `Spec/ImgIekf.lean` says what a correction, an iteration and a starting point are | invariant of the iterations and of the loop over starting points; C77, C81, C95 and C97 are proved again for the filter with this update (`C77_iterated`, ...), by relations that the increments keep |
| C108 | `AttitudeToYprCT` (`Model/Ypr.lean`) with kindr's conversion and mapping as documented | cofactors of the rotation matrix; derivative of the complex logarithm for `atan2` |
| C109 | the filter's updates (`Model/Filter.lean`) and the image update from pixels (`Model/ImgEkf.lean`) with LWF's test of the Mahalanobis distance | inequality of Cauchy and Schwarz for the innovation covariance; weighted sums over sequences of corrections |
| C110 | the filter of `Model/Filter.lean`: IMU prediction, all updates and their Jacobians; image update with pixels of `Model/ImgFull.lean` | a zero innovation gives a zero correction, induction over the inputs; columns of the Jacobians that vanish; for images an invariant of the update loop (nothing but removals has happened), brightness errors of a patch the image shows are zero; the iterated update of `Model/ImgIekf.lean`: every iteration stays where it starts, induction over the iterations; with pose measurements, whose alignment members change on the way, `Model/ImgPose.lean` (also C77 and C81: `C77_poses`, `C77_poses_iterated`); with alignment at start the first pose is absorbed (C44) and a pose that stays the same changes nothing afterwards |
| C111 | `drawVirtualHorizon` and `drawEllipse`: the numbers handed to OpenCV, with the conversions to `int` | inverse trigonometric functions on their domains, monotonicity of the cosine, rounding |
| C112 | pyramids whose `cv::Mat` members refer to buffers: constructors, `computeFromImage`, `operator=` | refinement of pyramids as values, by an invariant (no buffer is used twice) over histories of operations |
| C113 | the pointers of `FeatureManager` and the objects it allocates: constructor, `allocateMissing`, linking, assignment, destructor | invariant (owned is alive, one owner, alive is owned) over histories of operations; exact condition for undefined behaviour |
| C114 | `drawMultilevelPatchBorder`, `drawPatchBorder`, `get_patchCorner`: the segments handed to OpenCV | evaluation of the queries of the coordinates; derivative of the corner pixels from C13; weights of a point in a parallelogram; witness with a regular deformation for the exception |
| C115 | status, outline colour and label at the end of `postProcess`, frames in the sheet of patches | case distinction over the flags of the update; induction over the drawings from the last, pixels of the rim against the margin of the patches (C90) |

Properties whose unrestricted form is false of the code carry the exception in their statement; the exception is proved by a
theorem `Cnn_finding_*` (or a name saying what goes wrong) with a concrete witness, and listed under "Findings".

## Axioms
`tools/axioms.py` runs `#print axioms` on every theorem named in MANIFEST.json and writes `AXIOMS.md`, the list per theorem.  No
theorem depends on anything but `propext`, `Classical.choice` and `Quot.sound`.

## What is modelled

| source | modelled | not modelled |
|--------|----------|--------------|
| src/FeatureDistance.cpp, FeatureDistance.hpp | everything | - |
| FeatureStatistics.hpp | everything but printing | `std::map` iterator details |
| src/FeatureCoordinates.cpp, FeatureCoordinates.hpp | setters, lazy conversions, warps, triangulation, uncertainty, pixel covariance, uncertainty ellipse | other drawing |
| src/Camera.cpp | loading of calibrations, distortion models with Jacobians, projection, back-projection (loops with explicit NaN outcome) | YAML syntax (entries are given), `testCameraModel` |
| FeatureManager.hpp | the feature set, `addBestCandidates`, `addBestCandidatesNew`, scores | drawing |
| ImagePyramid.hpp | construction (2x2 mean; OpenCV's rule as a parameter), level transforms, FAST candidates (corner detector as a parameter), sharing and reuse of pixel buffers | - |
| Patch.hpp, MultilevelPatch.hpp | in-frame tests, extraction with and without warp, gradients, scores, differences, drawing of patches and of their outline | what OpenCV makes of the segments |
| MultilevelPatchAlignment.hpp | weights, equations, reduced equations, align2D, composed, adaptive | `align2D_old` (cannot be instantiated), debug assertions |
| MultiCamera.hpp, RobocentricFeatureElement.hpp | everything | - |
| FilterStates.hpp | state, increments, extrinsics selection, initialisation, covariance reset, median depth | registration of properties, pretty printing |
| ImuPrediction.hpp | prediction, both Jacobians, motion detection, substitute measurement | property registration |
| PoseUpdate.hpp, VelocityUpdate.hpp, ZeroVelocityUpdate.hpp | everything but property registration | - |
| ImgUpdate.hpp | control flow of pre- and post-processing, scan over features and cameras, candidates, statistics, patch refresh, removal, detection, zero velocity trigger; reprojection and direct innovation, Jacobians; initialisation of new features, mono and stereo; the artificial horizon | other drawing (but see below), timing output |
| ImgUpdate.hpp, generateCandidates and the iterated update | starting points (442-475), outlier check (477-537), iterations (LWF) | - |
| CoordinateTransform/*.hpp | RovioOutput, FeatureOutput, FeatureOutputReadable, LandmarkOutput, PixelOutput, YprOutput with Jacobians and covariances (kindr's Euler angles as documented) | - |
| RovioNode.hpp | callbacks, initialisation state machine, image sets, services, publishing with stamps, frames, sequence numbers and topics, message contents (poses, covariances, point cloud, patches, rays) | topic names, node handles, parameter reading |
| RovioFilter.hpp | resets, setExtrinsics, refreshProperties, registration of settings in the constructor, reading an info file | parsing of the info file, `MahalanobisTh` and unscented parameters |
| LWF (empty submodule) | as documented, see below | measurement queues and scheduling of updates |
| featureTracker.hpp | the image callback: prediction, alignment, pruning, patches, new features (OpenCV's pyramid and corners as parameters) | drawing, conversion of the message |
| ImgUpdate.hpp, pixel accesses | the accesses of 422, 477-537, 555, 613-621, 692-755, 827, 909-913, 987-1024 on the pyramids | see the drawings below |
| drawings of patches: ImgUpdate.hpp:596, 673, 713, 862-872; status, outline and label after a visit: 826-859; RovioScene.hpp:53, 200; featureTracker.hpp:130, 183-191 | size of the picture, cell of each drawing, bytes written; the frames (`cv::rectangle`, taken to be the rim of the rectangle); colours and labels | text and lines as drawn by OpenCV |
| Scene.hpp, Scene.cpp, shaders/shader.vs, shaders/shader.fs | objects and their shapes, buffers, textures, transformations, projection, vertex shader, light, fragment shader, drawing, keys, mouse, view point | window creation, shader compilation, rasterisation (OpenGL: parameters and reads as documented) |
| ImgUpdate.hpp, noise | `updnoiP_` in refreshProperties and preProcess (375-383, 717-727), `jacNoise` | changing a setting without refreshing |
| rovio_rosbag_loader.cpp | the loop over the bag (179-221), topic selection, recording switches | file names, info copy, time stamps of the records, interruption by `ros::ok`; `updateSafe` is an arbitrary function, assumed not to move the estimate back in time in `C86_records` |
| RovioScene.hpp | objects created, `drawScene`, order of drawing | window, callbacks into ROS |
| test_*.cpp | - | everything |

### Assumptions about LWF, kindr, Eigen, OpenCV and ROS
* kindr quaternions are Hamilton quaternions acting by `q v q⁻¹`; `boxPlus` multiplies with the exponential from the left; `Lmat`
  is the left Jacobian of the exponential; `fix()` normalises; `setFromVectors(a,b)` turns `a` onto `b`; `setFromVector(v)` of a
  bearing gives a unit quaternion whose image of the z axis is the normalised `v`.
* LWF's EKF: prediction `P ← F P Fᵀ + G Q Gᵀ`, update with innovation covariance `S = H P Hᵀ + R`, gain `P Hᵀ S⁻¹`, rows rejected
  by the outlier detection neutralised, `P ← P - K S Kᵀ`, `x ← x ⊞ (-K y)`, then `fix()` and symmetrisation.  A singular `S` is an
  explicit failure.  Prediction works in place.  Merging and splitting of inertial measurements around update times, the queues and
  the order in which queued measurements are processed are not modelled: a run is a list of steps.
* LWF's iterated update (`mode_ = 1`, the default of the direct method), as published: for every starting point, linearise at the current point
  `l`, increment `-K (y + H (x ⊟ l)) + (x ⊟ l)`, stop when its norm is at most `updateVecNormTermination_`, when cancelled or after `maxNumIteration_`;
  keep the results that pass the outlier check, take the one with the lowest score, fail if another one is further than twice the threshold from it.
* `transformCovMat` is `J P Jᵀ` followed by `postProcess`; `reset(t)` copies the initial state.
* OpenCV's `cv::Mat`: `create` keeps the buffer if the size is right and allocates otherwise, `copyTo` writes into the created destination, the copy
  constructor shares the buffer.
* Eigen: blocks and products as documented; SVD, QR and eigenvalue solvers are parameters with their contracts.
* `std::nth_element` selects the order statistic; iteration orders of hash containers are arbitrary.
* The mutex of the node makes callbacks atomic, so an execution is a sequence of callbacks.

## Findings
Behaviour of the code that contradicts its documentation or an unrestricted form of a property.  Those marked with a theorem are
proved; the others were noted when reading.

* C02: inside the clamp of the inverse parametrisation the reported derivative is wrong (`C02_clamped_derivative_wrong`).
* C03: changing only the type of a distance does not convert it (`C03_setType_does_not_convert`).
* C04: window counts need strictly increasing update times (`C04_window_needs_incremental`).
* C05: ranges below 1 leave [0,1] (`C05_needs_positive_range`).
* C08: the Jacobian query overwrites the pixel (`C08_finding_getJ_overwrites`).
* C10: the near-identity flag can be true while no warp is available (`C10_finding_flag_without_warp`).
* C11: the state increment keeps a stale warp (`C11_finding_boxPlus_stale`).
* C14: success with a NaN bearing when the normal matrix is singular (`C14_finding_nonfinite_success`).
* C15: the double-sphere centre case jumps and loses injectivity (`C15_finding_ds_centre_limit`, `C15_finding_ds_not_injective`).
* C18: with requireMax the penalty is ignored (`C18_finding_requireMax_ignores_penalty`).
* C20: a negative penalty indexes outside the buckets; addBestCandidatesNew (never called) writes to slot -1 when full.
* C22: a second level transform loses the warp (`C22_finding_warp_lost`).
* C23: odd image sizes are off and rows and columns are swapped in the offset (`C23_finding_odd_sizes`, `C23_finding_opencv_odd`).
* C25: OpenCV pyramid, odd size and contracting warp: read outside the image (`C25_finding_opencv_odd`).
* C27: extraction without border leaves the old score (`C27_finding_stale_border`); documented as the smaller eigenvalue, it is the sum.
* C30: gain without offset uses the with-offset regression (`C30_finding_gain_without_offset`); a constant reference divides by zero.
* C34: a feature removed before its turn is never advanced (`C34_finding_removed_before_visit`).
* C35: forced removal can loop forever (`C35_finding_factor_at_most_one`, `C35_finding_share_above_one`) and counts before removing
  (`C35_finding_counted_before_removal`).
* C40: the output keeps the parametrisation of the input and the warp is copied unchanged (`C40_parametrisation`, `C40_warp`).
* C41, C42: extrinsics blocks of other cameras are written to or computed with camera 0 (`C41_finding_second_camera`,
  `C42_finding_second_camera`); the rate covariance of the camera output is not rotated (`C42_finding_rate_covariance`).
* C44: a reset does not re-arm the alignment (`C44_finding_reset`).
* C45: equal template indices give a wrong Jacobian (`C45_finding_same_index`).
* C47: the product of two covariances is in general not symmetric (`C47_finding_not_symmetric`).
* C51: process noise acts on extrinsics that are not estimated (`C51_finding_extrinsic_noise`); rows of unused slots are zero
  (`C51_finding_unused_slot`).
* C53: distances collected instead of parameters for other cameras, negative distances count as certain (`C53_finding_type`,
  `C53_finding_negative`).
* C54: ignored requests report success (`C54_finding_ignored`); the covariance of the last odometry message is used for transform
  messages (`C54_finding_covariance`).
* C55: a half-collected set survives a reset, three cameras never deliver (`C55_finding_reset`, `C55_finding_three`).
* C56: stale patch data for invalid slots (`C56_finding_stale`).
* C57: the far end of inverse distances is clamped to 0; camera coordinates in the IMU frame (`C57_finding_inverse`, `C57_finding_frame`).
* C59: an accelerometer reset keeps the position of an earlier pose reset (`C59_finding_position`).
* C71: sign of the extrinsic rotation columns, basis mismatch of the warp, distance row (`C71_finding_*`).
* C79: a feature that ends up behind the other camera during an update silently uses the pixel and the projection Jacobian of an
  earlier call (`C79_finding_behind`); the wrong signs of C71 carry over to the image update (`C79_linearisation`).
* C82: a triangulated distance gets the unscaled configured variance (`C82_finding_stereo_variance`).
* C83: unknown distortion models are ignored, skew is ignored, the detection radius of an earlier calibration survives
  (`C83_finding_unknown_model`, `C83_finding_skew`, `C83_finding_stale_radius`).
* C49: predicting into another state object keeps that object's settings and timers (`C49_finding_not_in_place`).
* C84: the documented prediction from the previous two pixels always predicts zero motion, since line 158 overwrites the remembered
  pixel (`C84_finding_no_motion_model`); statistics are never reset, so new features inherit those of the slot
  (`C84_finding_init_time`).
* C85: with three or more estimated poses, the third and later have no entries in the info file (`C85_finding_later_poses`); rotations
  are read component-wise and not normalised (`C85_finding_not_unit`).
* C86: the first published estimate is never recorded (`C86_finding_first_not_recorded`); the IMU message that restarts the filter after
  a reset makes the loader write the previous messages again (`C86_finding_stale_record`); `record_pose_with_covariance_stamped` is
  read but nothing is written (`C86_finding_pose_not_recorded`); the attitude copied when the trigger fires is overwritten from the
  accelerometer (`C86_trigger`).
* C70: the in-frame tests before and after an update use the image of the camera in which the feature lives, not of the one in which it is measured
  (ImgUpdate.hpp:692, 827); harmless if all images have the same size (`C70_own_frame`), wrong otherwise (`C70_finding_image_size`).
* C87: without the direct method, `noiseGainForOffCamera` has no effect (`C87_finding_gain_ignored`).
* C88: motion detection tests the position in the previous image and reads the new one: a smaller new image is read outside
  (`C88_finding_size_change`).  The in-frame test of a warped patch converts corner positions to `int` before comparing them, which is undefined
  for positions beyond the range of an `int` (`C88_finding_overflow`).  Lines 692 and 827 of ImgUpdate.hpp test a feature seen by one camera in the
  image of another camera; this affects the decision only, not the memory that is read (`C70_finding_image_size`).
* C89: every message has sequence number 1; poses with covariance have an empty frame (`C89_finding_headers`); the biases are announced in the
  world frame but are in IMU coordinates (`C89_finding_bias_frame`).
* C90: with a magnification other than one the levels are not drawn concentrically (`C90_finding_magnification`; all callers pass one).  The
  texture of the 3D view is not cleared between features: a feature without a valid coarsest level shows the rim of the previous one
  (`C90_finding_texture`).
* C91: the sides of a full cube that face the viewer are skipped and the far ones shown (`C91_finding_cube_culled`: front faces are declared clockwise);
  the projection is set up for 4:3 but the window is 16:9, so pictures are stretched by 4/3 (`C91_finding_aspect`); textures are read with rows at
  multiples of four bytes, a picture six pixels wide is read beyond its end (`C91_finding_texture_alignment`); `setYDown` with a step that is not
  positive never ends (undefined in the model).
* C92: the depth segment uses the variance of the distance parameter where a standard deviation is meant (`C92_finding_variance`); features estimated
  beyond 1000 m lie outside their depth segment (`C92_finding_far`).
* C93: assigning filter states does not assign the patches (`C93_finding_copy`); harmless for resets, whose source holds no features.  Identifiers start
  again after a reset (`C93_finding_ids`).  What a reset does not undo: see C44, C55, C59.
* C99: without `useIntensityOffset_` the brightness of the images matters (`C99_finding_no_offset`). A change of contrast is compensated in the alignment by `useIntensitySqew_`, but not in the matching error that decides on acceptance: that grows with the gain (`C99_finding_gain`).
* C98: which of several equally ranked candidates becomes a feature depends on the iteration order of `std::unordered_set` (`C98_finding_buckets`).
* C103: the covariance of the camera output's rate depends on the axes of the IMU, because the noise of the gyroscope is added without turning it into the camera frame (`RovioOutput.hpp:145-147`, `C103_finding_camera_rate`).
* C105: without online calibration the message of the camera mounting carries the configured mounting with the covariance of the unused estimate in the state (`RovioNode.hpp`, `C105_finding_message`).
* C107: if the alignment equations cannot be set up at the estimate, innovation and Jacobian are zero, the zero increment counts as converged and the update is reported as successful without a measurement (`ImgUpdate.hpp:428-433, 557-562`, `C107_finding_no_measurement`).
* C107: the iterations stop by the norm of the increment of the whole state, so correlations with position, velocity or an uncalibrated mounting, which no image determines, decide whether a feature is matched (`C107_finding_unseen`). C100 and C105 therefore hold with a single correction (reprojection error), not with the iterated update of the direct method; C101, C102, C103 are proved with a single correction.
* C94: with `minAbsoluteSTScore` below -1, candidates outside the image become features with uninitialised patches (`C94_finding_score`).  Read, not
  proved: with `startLevel` below the coarsest level and patches visualised, the coarse levels of a feature's patch are leftovers of another feature
  (include/rovio/ImgUpdate.hpp:863-864, 914; only drawn).
* C111: the artificial horizon is undefined (NaN converted to `int`) for a camera whose optical axis is more than 60 degrees above or below the
  horizon, e.g. one that looks at the ground (`C111_finding_steep`).
* C112: the class has an assignment operator that copies pixels but no copy constructor ("complete rule of three"): a copy constructed pyramid
  shares its pixels with the original and changes with it (`C112_finding_copy_constructed`).  The repository itself only assigns.
* C113: `FeatureManager` deletes what it owns but has no copy constructor ("complete rule of three"): destroying a copy constructed slot and the
  original deletes twice (`C113_finding_copy_constructed`).  Assignment before `allocateMissing` follows a null pointer
  (`C113_finding_assign_unallocated`).
* C114: a corner of the outline that the camera does not see is drawn at whatever place the memory of a temporary object happens to hold, since
  `drawPatchBorder` asks for the pixel of the corner without checking that it has one (`C114_finding_behind`; only drawn).
* C115: the label "PE" (too large intensity error) is also given to a feature whose patch matches exactly: `extraOutlierCheck` rejects for other reasons as
  well, a patch outside the image or surroundings that look the same (`C115_finding_label`; only drawn and printed).
* C95: the position noise of the prediction is configured per axis of the world frame; with different horizontal entries the heading of the world frame
  matters (`C95_finding_horizontal_noise`).
* C32: the default of `align2DAdaptive` for its lowest level is the number of levels, one beyond the last; with it the alignment is undefined
  (`C32_finding_default_level`; all callers pass a level).
* C66: with gain estimation the gradient is scaled with the gain before the gradient-based weight is computed; the weight of steep pixels becomes negative
  and larger than that of flat ones (`C66_finding_gradient_gain`; off by default).
* C108: with a vertical first axis yaw and roll are both reported as zero, whatever they are (`C108_finding_vertical`).
* Read, not proved: exceptions.hpp:57 keeps a dangling `c_str`; RobocentricFeatureElement's `fix` marks a
  bearing valid even if back-projection failed.

## Mutation tests
`seeded/LOG.jsonl` records every seeded bug: the definition edited, the edit, the claim it breaks, the theorems that failed, and the
theorems tightened when a claim survived.
