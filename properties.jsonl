{"id": "C01", "title": "Distance parametrisations round-trip", "statement": "Storing a metric distance with setParameter(d) and reading it back with getDistance() returns d, for the regular and hyperbolic parametrisation for every d, for the logarithmic one for every d>0, and for the inverse one for every d with 1e-6 <= |d| <= 1e6; outside that range the inverse parametrisation saturates at exactly +-1e6 or +-1e-6 with the sign of d. A new distance has parameter one (a distance of one, one, e and sinh 1 in the regular, inverse, logarithmic and hyperbolic parametrisation).", "quantifier": "every parametrisation type and every real distance", "why_tests_cant": "the domain of distances is infinite and the saturation boundary is a single point per sign", "anchors": ["src/FeatureDistance.cpp:setParameter,getDistance,makeNonZero"]}
{"id": "C02", "title": "Distance derivatives are the true derivatives", "statement": "getDistanceDerivative() is the derivative of the distance with respect to the stored parameter, getParameterDerivative() is its reciprocal (the derivative of the parameter with respect to the distance) and getParameterDerivativeCombined() is the derivative of getParameterDerivative() with respect to the stored parameter, for every parameter value at which the inverse parametrisation is not clamped; inside the clamp the reported derivative is wrong.", "quantifier": "every parametrisation type and every parameter value", "why_tests_cant": "finite differences at sampled parameters cannot establish equality of derivatives everywhere", "anchors": ["src/FeatureDistance.cpp:getDistanceDerivative,getParameterDerivative,getParameterDerivativeCombined"]}
{"id": "C03", "title": "Converting between parametrisations keeps the metric distance", "statement": "Assigning a feature distance held in one parametrisation to one of another type through the converting setter leaves getDistance() unchanged whenever the distance is representable in both types.", "quantifier": "every ordered pair of parametrisation types and every representable distance", "why_tests_cant": "sixteen type pairs times a continuum of distances", "anchors": ["src/FeatureDistance.cpp:getParameterDerivativeCombined(FeatureDistance)"]}
{"id": "C04", "title": "Tracking counts partition the history", "statement": "For every history of status assignments and statistic updates with strictly increasing times, the per-camera counts over the five tracking states (whole life or a window of the last n frames) add up to the number of frames they range over, and the frames counted as tracked are exactly those in which some camera tracked the feature, so countTracked() <= countTot().", "quantifier": "every history of status changes and updates, every camera, every window length", "why_tests_cant": "histories are unbounded and window sizes arbitrary", "anchors": ["include/rovio/FeatureStatistics.hpp:increaseStatistics,countTrackingStatistics,countTot,countTracked"]}
{"id": "C05", "title": "Quality measures stay in [0,1]", "statement": "Global quality, every local quality, local visibility, joint local visibility, average and maximum local quality lie in [0,1] after any history of updates, provided the three configured ranges are at least 1; with a range below 1 the bound fails.", "quantifier": "every history of updates and every configuration", "why_tests_cant": "an invariant over unbounded histories of a recursive filter", "anchors": ["include/rovio/FeatureStatistics.hpp:getGlobalQuality,getLocalQuality,getLocalVisibility,getAverageLocalQuality,getMaxLocalQuality,getJointLocalVisibility"]}
{"id": "C06", "title": "Quality getters preview the next update", "statement": "What getLocalQuality, getLocalVisibility, getJointLocalVisibility, countTot and countTracked report before increaseStatistics(t) is exactly what is stored by increaseStatistics(t), and those values are unaffected by the time stamp used.", "quantifier": "every reachable statistics object, every camera and time", "why_tests_cant": "two separately written formulas must agree on every state", "anchors": ["include/rovio/FeatureStatistics.hpp:increaseStatistics,getLocalQuality,getLocalVisibility,getJointLocalVisibility"]}
{"id": "C07", "title": "Feature acceptance is monotone in the thresholds and relaxes with age", "statement": "isGoodFeature(upper,lower) accepts exactly when in some camera the product of local quality and local visibility exceeds a threshold that moves linearly from upper (global quality 0) to lower (global quality 1); raising either threshold never turns a rejected feature into an accepted one.", "quantifier": "every reachable statistics object and every threshold pair", "why_tests_cant": "continuum of thresholds and histories", "anchors": ["include/rovio/FeatureStatistics.hpp:isGoodFeature"]}
{"id": "C08", "title": "Coordinates are last-writer-wins under any query sequence", "statement": "After set_c(c) (set_nor(n)) every sequence of conversions and queries other than those that need the projection Jacobian (the Jacobian query itself and the warp conversions) leaves get_c()=c (get_nor()=n); computing the Jacobian overwrites the stored pixel with the reprojection of the bearing, so the law holds across it exactly when the camera round-trips that pixel.", "quantifier": "every camera, every pixel or bearing and every finite sequence of queries", "why_tests_cant": "all interleavings of lazily cached conversions must be covered", "anchors": ["src/FeatureCoordinates.cpp:set_c,set_nor,com_c,com_nor,get_J"]}
{"id": "C09", "title": "A feature reported in front of the camera always has a pixel", "statement": "If isInFront() holds (and a camera is attached) then com_c() succeeds, isInFront() still holds afterwards, and a feature known only by bearing has a pixel exactly when it is in front.", "quantifier": "every reachable coordinates object", "why_tests_cant": "the two decisions are computed in different functions from different cached data", "anchors": ["src/FeatureCoordinates.cpp:isInFront,com_c", "src/Camera.cpp:bearingToPixel"]}
{"id": "C10", "title": "Near-identity warp flag is never wrong for a valid warp", "statement": "In every state reachable through the setters and conversions, when the warp is available in pixel coordinates and isNearIdentityWarping() answers true because of its identity flag, the pixel warp is exactly the identity.", "quantifier": "every finite history of coordinate and warp setters and conversions", "why_tests_cant": "invariant over arbitrary call histories", "anchors": ["src/FeatureCoordinates.cpp:set_warp_identity,set_warp_c,set_warp_nor,isNearIdentityWarping,com_warp_c"]}
{"id": "C11", "title": "Pixel warp and bearing warp describe the same deformation", "statement": "While the bearing is not changed without resetting the warp, whenever both warp representations are available they satisfy warp_c = J*warp_nor for the projection Jacobian J at the current bearing; the filter's own state increment violates it by moving the bearing with the warp retained.", "quantifier": "every finite history of setters and conversions", "why_tests_cant": "stale-cache bugs only show in particular call orders", "anchors": ["src/FeatureCoordinates.cpp:com_warp_c,com_warp_nor,set_nor", "include/rovio/RobocentricFeatureElement.hpp:boxPlus"]}
{"id": "C12", "title": "Projection depends on the viewing ray only and fails exactly behind the camera", "statement": "bearingToPixel succeeds exactly for vectors with z>0, gives the same pixel for every positive multiple of a vector, and the overload that also returns the Jacobian returns the same pixel.", "quantifier": "every camera model, intrinsics, distortion coefficients and vector", "why_tests_cant": "continuum of inputs", "anchors": ["src/Camera.cpp:bearingToPixel"]}
{"id": "C13", "title": "Projection Jacobians are the true derivatives", "statement": "For the radial-tangential, equidistant and double-sphere models the Jacobian returned by distort() and by bearingToPixel() is the derivative of the returned pixel, at every point with z>0 (for equidistant and double sphere away from the special-cased centre).", "quantifier": "every distortion model, parameter set and point", "why_tests_cant": "derivative identities over a continuum", "anchors": ["src/Camera.cpp:distortRadtan,distortEquidist,distortDoubleSphere,bearingToPixel"]}
{"id": "C14", "title": "Back-projection returns a forward unit ray whose reprojection error was below tolerance", "statement": "Whenever pixelToBearing succeeds without meeting a singular normal matrix the returned bearing has unit norm and z>0 and the last Gauss-Newton iterate tested had squared residual at most 1e-10; for a distortion-free camera with non-zero focal lengths it always succeeds and projecting the result gives back the pixel exactly, and back-projecting a projected forward bearing gives the normalised bearing; a singular normal matrix can make it report success with a non-finite bearing.", "quantifier": "every camera and pixel", "why_tests_cant": "iterative numerical routine over a continuum", "anchors": ["src/Camera.cpp:pixelToBearing,distort"]}
{"id": "C15", "title": "Radial distortion models keep the azimuth", "statement": "The equidistant and double-sphere distortions map a point to a multiple of itself, the multiple being positive in the valid field of view, so image azimuth is preserved; the double-sphere special case at the centre uses factor 1 where the limit of the model is 1/(1+k1), a jump unless k1=0.", "quantifier": "every parameter set and point", "why_tests_cant": "continuum; discontinuity at a single point", "anchors": ["src/Camera.cpp:distortEquidist,distortDoubleSphere"]}
{"id": "C16", "title": "Feature identifiers are never reused", "statement": "Over any history of feature creation, removal and set reset between resets, makeNewFeature fills the lowest free slot, leaves all other slots untouched, returns -1 and changes nothing when full, and gives the new feature an identifier different from every identifier handed out before.", "quantifier": "every history of creations and removals", "why_tests_cant": "unbounded histories", "anchors": ["include/rovio/FeatureManager.hpp:getFreeIndex,makeNewFeature,getValidCount"]}
{"id": "C17", "title": "Adding candidates respects the requested amount and the capacity", "statement": "addBestCandidates adds at most the requested number of features and never more than the free slots, returns exactly the newly occupied slots, leaves the already valid features' identities untouched, places each candidate at most once, and adds nothing when no candidate scores above the minimal score.", "quantifier": "every feature set, candidate list, scores, bucket configuration and bucket iteration order", "why_tests_cant": "combinatorial space of candidate sets and hash-set orders", "anchors": ["include/rovio/FeatureManager.hpp:addBestCandidates"]}
{"id": "C18", "title": "New features keep their distance", "statement": "When the maximum number is not required, no candidate is added by addBestCandidates if its squared distance d2 to an already present feature visible in that camera or to another feature added in the same call satisfies d2 < penaltyDistance^2 and (1-d2/penaltyDistance^2)*zeroDistancePenalty > nDetectionBuckets-2; when the maximum is required (as the feature tracker does) candidates at the same pixel can both be added.", "quantifier": "every candidate list, feature set, score distribution and iteration order", "why_tests_cant": "depends on interleaved bucket moves over all candidates", "anchors": ["include/rovio/FeatureManager.hpp:addBestCandidates"]}
{"id": "C19", "title": "Candidates are taken greedily from the best bucket", "statement": "Each feature added by addBestCandidates comes from the highest non-empty bucket after all penalties so far, for every order in which the hash sets are iterated.", "quantifier": "every candidate list and iteration order", "why_tests_cant": "nondeterministic iteration order", "anchors": ["include/rovio/FeatureManager.hpp:addBestCandidates"]}
{"id": "C20", "title": "Candidate insertion never indexes outside its buckets or slots", "statement": "With at least one bucket and a non-negative penalty addBestCandidates never accesses a bucket or slot out of range; a negative penalty can, and addBestCandidatesNew writes to slot -1 when the set is full.", "quantifier": "every configuration and candidate list", "why_tests_cant": "memory safety over all configurations", "anchors": ["include/rovio/FeatureManager.hpp:addBestCandidates,addBestCandidatesNew"]}
{"id": "C21", "title": "Pyramid construction halves the image and averages blocks", "statement": "Each pyramid level has floor(half) the size of the previous one, every pixel is the floored mean of its 2x2 block, so grey values stay in range, constant images stay constant and brightness order is preserved; no read leaves the source image.", "quantifier": "every image and number of levels", "why_tests_cant": "all images", "anchors": ["include/rovio/ImagePyramid.hpp:halfSample,computeFromImage"]}
{"id": "C22", "title": "Level coordinate transforms form a groupoid", "statement": "Transforming pixel coordinates from level a to b and on to c equals the direct transform a to c, and a to b to a is the identity, for every image size; the warp attached to the coordinates survives only the first transform.", "quantifier": "every image size, levels and coordinates", "why_tests_cant": "continuum of coordinates, all sizes", "anchors": ["include/rovio/ImagePyramid.hpp:levelTranformCoordinates,computeFromImage"]}
{"id": "C23", "title": "Level coordinates hit the block that was averaged", "statement": "With the 2x2-mean pyramid and image sides divisible by 2^(levels-1), the centre of pixel (x,y) on level l corresponds to the centre of the level-0 block it averages; for odd sizes the transform is off, and the horizontal offset is computed from the number of rows (and vice versa). With the OpenCV pyramid the same holds up to its own half-pixel convention.", "quantifier": "every image size and pixel", "why_tests_cant": "unit test fixes one size and asserts the swapped values", "anchors": ["include/rovio/ImagePyramid.hpp:computeFromImage,levelTranformCoordinates,halfSample"]}
{"id": "C24", "title": "Patch extraction never reads outside the image", "statement": "If isPatchInFrame(img,c,withBorder) answers true then extractPatchFromImage(img,c,withBorder) reads only pixels inside img, with identity and with arbitrary affine warp, for every image and position.", "quantifier": "every image size, position, warp, patch size and border flag", "why_tests_cant": "pointer arithmetic at every sub-pixel position and warp", "anchors": ["include/rovio/Patch.hpp:isPatchInFrame,extractPatchFromImage"]}
{"id": "C25", "title": "The coarsest level decides visibility of all levels", "statement": "With the 2x2-mean pyramid of any image size, and with the OpenCV pyramid for sizes divisible by 2^l: if isMultilevelPatchInFrame(pyr,c,l,withBorder) holds then extractMultilevelPatchFromImage up to level l never reads outside any pyramid image. With the OpenCV pyramid and an odd size this fails for contracting warps.", "quantifier": "every image size, number of levels, position and warp", "why_tests_cant": "induction over levels with size-dependent rounding", "anchors": ["include/rovio/MultilevelPatch.hpp:isMultilevelPatchInFrame,extractMultilevelPatchFromImage"]}
{"id": "C26", "title": "Extracted intensities are interpolated image intensities", "statement": "Every extracted value lies between the minimum and maximum grey value of the pixels it reads, equals the pixel value at integer positions, and on an image with affine grey values equals that affine function at the sampled position.", "quantifier": "every image and position", "why_tests_cant": "continuum of positions", "anchors": ["include/rovio/Patch.hpp:extractPatchFromImage"]}
{"id": "C27", "title": "Corner scores are genuine eigenvalues", "statement": "Whatever happened to a patch before, the structure tensor's two reported eigenvalues (of the current expanded patch) are real, non-negative and ordered, their sum is the tensor trace and their product its determinant, the combined score is their sum, and it is zero exactly when the patch has no gradient; over several levels the tensor is the mean over valid levels weighted by 1/4^level and the score is -1 without a valid level. After an extraction without border the score is that of the previous expanded patch.", "quantifier": "every patch content and size", "why_tests_cant": "non-negativity rests on Cauchy-Schwarz over all patches", "anchors": ["include/rovio/Patch.hpp:computeGradientParameters", "include/rovio/MultilevelPatch.hpp:computeMultilevelShiTomasiScore"]}
{"id": "C28", "title": "Average patch difference is a brightness-invariant pseudo-metric", "statement": "computeAverageDifference is non-negative, symmetric, satisfies the triangle inequality, is unchanged when a constant is added to all intensities of either patch and is zero exactly when the patches differ by a constant.", "quantifier": "every pair/triple of multilevel patches and level range", "why_tests_cant": "metric laws over all patches", "anchors": ["include/rovio/MultilevelPatch.hpp:computeAverageDifference"]}
{"id": "C29", "title": "Robust weighting is the Huber norm", "statement": "With a positive threshold the residual magnitude after weighting is the square root Huber loss: unchanged up to the threshold, continuous at it, sign preserving, monotone, and never larger than the raw residual; the row scaling of the Jacobian is the derivative of that map.", "quantifier": "every residual and threshold", "why_tests_cant": "continuum", "anchors": ["include/rovio/MultilevelPatchAlignment.hpp:getLinearAlignEquations"]}
{"id": "C30", "title": "Alignment residuals ignore affine brightness changes", "statement": "With the intensity offset enabled the alignment residuals are unchanged when a constant is added to the reference patch, and with offset and gain estimation they vanish when the image patch is an affine brightness transform of the reference within the admitted gain; a constant reference patch makes the gain estimate divide by zero.", "quantifier": "every patch pair and brightness change", "why_tests_cant": "continuum", "anchors": ["include/rovio/MultilevelPatchAlignment.hpp:getLinearAlignEquations"]}
{"id": "C31", "title": "Image alignment is bounded and reports convergence honestly", "statement": "align2D performs at most the requested number of iterations and returns true only if its last step was shorter than the requested tolerance; the composed alignment visits the levels from coarse to fine and returns true only if the last one converged. The result depends on no other pyramid levels or patches than the requested levels, for the alignment on a single level on that level only.", "quantifier": "every image, patch, start and parameters", "why_tests_cant": "iterative routine with unbounded data", "anchors": ["include/rovio/MultilevelPatchAlignment.hpp:align2D,align2DSingleLevel,align2DComposed"]}
{"id": "C32", "title": "Adaptive alignment returns the best in-frame seed", "statement": "With n>0 seeds per side align2DAdaptive succeeds exactly when some of the 2n+1 seeds aligned in frame and then returns one whose average intensity error is minimal among them; the seeds are spread symmetrically over the requested uncertainty interval. Exception: with the default of the lowest level (one beyond the last level) the alignment reads outside the pyramid.", "quantifier": "every outcome of the individual alignments", "why_tests_cant": "all outcome combinations for arbitrary n", "anchors": ["include/rovio/MultilevelPatchAlignment.hpp:align2DAdaptive"]}
{"id": "C33", "title": "One image visits every valid feature in every usable camera exactly once", "statement": "Processing one image terminates and presents each valid feature for update at most once per camera, in increasing slot order, exactly the cameras enabled by the cross-camera setting, and finishes after all slots were visited.", "quantifier": "every set of valid slots, number of slots and cameras and every per-feature outcome", "why_tests_cant": "state machine driven by an outer loop with arbitrary outcomes", "anchors": ["include/rovio/ImgUpdate.hpp:preProcess,postProcess"]}
{"id": "C34", "title": "Statistics advance once per feature and image", "statement": "During one image update the statistics of each feature valid at the start advance exactly once, whatever the outcomes of matching and outlier rejection, unless the feature is removed (its distance having become non-positive) before its turn comes; those of other slots do not advance. A feature removed before its turn is never advanced.", "quantifier": "every set of features and outcomes", "why_tests_cant": "all outcome sequences", "anchors": ["include/rovio/ImgUpdate.hpp:preProcess", "include/rovio/FeatureStatistics.hpp:increaseStatistics"]}
{"id": "C35", "title": "Forced feature removal terminates and spares tracked features", "statement": "After an image the forced-removal loop only removes features that are currently not tracked in any camera, and it terminates with at least the requested number of free slots whenever that share of tracked-or-free slots is at most 1, the removal factor exceeds 1, the upper threshold is positive and the lower one not negative; with a factor of at most 1 or a share above 1 there are states in which it never ends. The tracked features are counted before bad features are removed, so a tracked but bad feature can make the final share fall short.", "quantifier": "every feature set, statistics and configuration", "why_tests_cant": "termination over all configurations", "anchors": ["include/rovio/ImgUpdate.hpp:commonPostProcess"]}
{"id": "C36", "title": "Detection fills at most the free slots, shared over cameras", "statement": "Per image, feature detection is started only if the valid share is below the start threshold, each camera may add at most (free slots)/(cameras left) features, all belonging to that camera and starting with fresh statistics, existing features are untouched, and afterwards the number of valid features is at most the capacity.", "quantifier": "every number of cameras, capacity and detection outcome", "why_tests_cant": "all outcome combinations", "anchors": ["include/rovio/ImgUpdate.hpp:commonPostProcess"]}
{"id": "C37", "title": "Features with non-positive distance do not survive an update", "statement": "When removal of negative features is enabled, after the update of a feature every feature whose distance is below 1e-8 is invalid, and no other feature is invalidated by that step.", "quantifier": "every feature set and distances", "why_tests_cant": "all states", "anchors": ["include/rovio/ImgUpdate.hpp:postProcess"]}
{"id": "C38", "title": "Zero-velocity updates need both motion detectors to be quiet", "statement": "A zero-velocity update is applied after an image exactly if it and the visual motion detection are enabled and the times since the last detection of the image and of the inertial motion detector both exceed the configured time; if it is not applied, the result of the image is the one with zero-velocity updates switched off, and if it is, that result with estimate, covariance and feature coordinates moved by the update and nothing else changed. The time since the last motion is reset exactly by a detection and otherwise grows by the elapsed time. The image detector fires (from the second image on) exactly if fewer than the minimum of visible features remain or the moving ones exceed the configured share of the visible ones.", "quantifier": "every history of predictions and images", "why_tests_cant": "temporal property over unbounded histories", "anchors": ["include/rovio/ImgUpdate.hpp:commonPreProcess,commonPostProcess", "include/rovio/ImuPrediction.hpp:evalPrediction,detectInertialMotion"]}
{"id": "C39", "title": "Candidate generation enumerates the whole search grid once", "statement": "Repeated calls of the linearisation-candidate generator visit each of the (2m+1)^2 grid offsets exactly once, return exactly those inside the uncertainty ellipse, among them always the current estimate, and then report exhaustion; the state increment of a candidate moves the predicted pixel by the grid offset to first order.", "quantifier": "every grid half-width m", "why_tests_cant": "unbounded m", "anchors": ["include/rovio/ImgUpdate.hpp:generateCandidates"]}
{"id": "C40", "title": "Moving a feature between cameras keeps the 3D point", "statement": "transformFeature re-expresses distance and bearing in another camera so that the landmark position in the body frame is unchanged; going to another camera and back is the identity on landmarks, going via a third camera equals going directly, and the output distance is positive unless the landmark is at the other camera's centre. This holds for landmarks more than 1e-6 (kindr's limit for directions) away from the camera centres whose distance the parametrisation can represent.", "quantifier": "every extrinsic calibration, camera pair and feature", "why_tests_cant": "continuum of poses", "anchors": ["include/rovio/MultiCamera.hpp:transformFeature"]}
{"id": "C41", "title": "Published landmarks are the features' 3D points and their Jacobian is exact", "statement": "The landmark output equals the feature's 3D point in the IMU frame independently of the camera it is expressed in; its Jacobian is the derivative with respect to distance, bearing and (for camera 0) extrinsics; for any other camera the extrinsics block is written to camera 0's columns.", "quantifier": "every state and camera", "why_tests_cant": "continuum; the error needs a second camera", "anchors": ["include/rovio/CoordinateTransform/LandmarkOutput.hpp:evalTransform,jacTransform"]}
{"id": "C42", "title": "Camera and IMU outputs are rigid-body consistent", "statement": "The camera output pose is the IMU output pose composed with the extrinsics, its velocities are the rigid-body velocities at the camera, and the published Jacobians are the derivatives; the camera velocity's sensitivity to the extrinsic rotation uses camera 0's lever arm for every camera.", "quantifier": "every state and camera", "why_tests_cant": "continuum of states", "anchors": ["include/rovio/CoordinateTransform/RovioOutput.hpp:CameraOutputCT,ImuOutputCT"]}
{"id": "C43", "title": "Pose messages round-trip through the reset service", "statement": "The orientation published in odometry, transform and extrinsics messages represents the same rotation as the filter's IMU-to-world (camera-to-IMU, world-to-map) attitude, and feeding a published pose to the reset-to-pose service initialises the filter with the same position and rotation.", "quantifier": "every state", "why_tests_cant": "continuum of rotations; sign conventions", "anchors": ["include/rovio/RovioNode.hpp:updateAndPublish,resetToPoseServiceCallback,requestResetToPose", "include/rovio/FilterStates.hpp:initWithImuPose"]}
{"id": "C44", "title": "The first pose measurement is absorbed by the inertial alignment", "statement": "With alignment at start enabled, immediately after pre-processing the first pose measurement the noise-free innovation of that measurement is zero in position and identity in attitude, the update with it changes nothing of position, velocity, attitude, biases, mounting of the cameras and features, and later measurements, images and resets never change the stored alignment; a filter reset does not re-arm the alignment.", "quantifier": "every state, measurement and configuration", "why_tests_cant": "continuum of poses", "anchors": ["include/rovio/PoseUpdate.hpp:preProcess,evalInnovation"]}
{"id": "C45", "title": "Pose update Jacobian is exact", "statement": "With feedback enabled, and the two frame alignments configured in different slots, the pose update's state Jacobian is the derivative of its innovation with respect to position, attitude and the estimated frame alignments; if both are configured in the same slot, which the code allows, it is not.", "quantifier": "every state and measurement", "why_tests_cant": "continuum", "anchors": ["include/rovio/PoseUpdate.hpp:evalInnovation,jacState"]}
{"id": "C46", "title": "Without feedback external poses never influence odometry", "statement": "With noFeedbackToRovio enabled, and initially uncorrelated alignment states, no sequence of predictions, image, velocity and pose updates lets a pose measurement change the estimate or covariance of any state other than the frame alignments.", "quantifier": "every history of measurements", "why_tests_cant": "correlations could build up over arbitrarily long histories", "anchors": ["include/rovio/PoseUpdate.hpp:jacState", "include/rovio/ImuPrediction.hpp:jacPreviousState,jacNoise"]}
{"id": "C47", "title": "Measured odometry covariance yields a valid noise covariance", "statement": "With useOdometryCov the measurement noise is the product of configured and measured covariance; it is symmetric when the configured covariance is a multiple of the identity (per block if the measured one is block-diagonal), and not in general.", "quantifier": "every configured and measured covariance", "why_tests_cant": "continuum", "anchors": ["include/rovio/PoseUpdate.hpp:preProcess"]}
{"id": "C48", "title": "Velocity updates vanish exactly at the measured velocity", "statement": "The velocity innovation is zero exactly when the rotated IMU velocity equals the measurement, the zero-velocity innovation exactly when the IMU velocity is zero, and their Jacobians are exact.", "quantifier": "every state and measurement", "why_tests_cant": "continuum; sign convention of the stored velocity", "anchors": ["include/rovio/VelocityUpdate.hpp:evalInnovation,jacState", "include/rovio/ZeroVelocityUpdate.hpp:evalInnovation,jacState"]}
{"id": "C49", "title": "Without IMU data the platform keeps its velocity", "statement": "The substitute measurement used when no IMU data is available makes the noise-free prediction keep attitude, velocity, biases, extrinsics and alignments constant, moves the position linearly, and is never classified as inertial motion. Exception: predicting into another state object than the input keeps that object's settings and timers.", "quantifier": "every state and time step", "why_tests_cant": "continuum", "anchors": ["include/rovio/ImuPrediction.hpp:noMeasCase,evalPrediction,detectInertialMotion"]}
{"id": "C50", "title": "Feature prediction follows a static landmark to first order", "statement": "The derivative with respect to the time step of the predicted landmark position (distance times bearing) is the rigid-body velocity of a static point seen from the moving camera, for all distance parametrisations; predicted bearings keep unit length.", "quantifier": "every state, IMU measurement and parametrisation", "why_tests_cant": "continuum", "anchors": ["include/rovio/ImuPrediction.hpp:evalPrediction"]}
{"id": "C51", "title": "Prediction Jacobians are exact", "statement": "The state and noise Jacobians of the prediction are the derivatives of the prediction with respect to the state increment and the process noise, in every component: position, velocity, biases, attitude, extrinsics, pose alignments, and bearing and distance parameter of every feature in use, for every distance parametrisation away from its clamp. Exceptions: without online calibration the noise Jacobian still has entries for the extrinsics, which are not estimated, and the rows of unused slots are zero although the prediction keeps those slots.", "quantifier": "every state, measurement, positive time step and direction of increment", "why_tests_cant": "A finite-difference test samples points and directions; wrong terms vanish at special attitudes, velocities or extrinsics.", "anchors": ["include/rovio/ImuPrediction.hpp:jacPreviousState,jacNoise,evalPrediction"]}
{"id": "C52", "title": "Inserting a feature resets its covariance cleanly", "statement": "Initialising a slot's covariance leaves all other entries untouched, removes every correlation of the slot with other states, sets exactly the requested initial block (distance and bearing entries swapped into place), and keeps the matrix symmetric and positive semi-definite.", "quantifier": "every covariance matrix, slot and initial block", "why_tests_cant": "matrix property over all matrices and sizes", "anchors": ["include/rovio/FilterStates.hpp:resetFeatureCovariance"]}
{"id": "C53", "title": "Median depth initialisation is a robust median", "statement": "With more than three well-estimated features seen in a camera, all parametrised like the requested depth type, the depth parameter used to initialise new ones is the upper median of their parameters: at least half of them are not larger and at least half are not smaller; otherwise it is the configured initial value. A feature hosted by another camera is collected with its distance instead of its parameter, and a feature with a negative distance counts as well estimated.", "quantifier": "every set of features and covariances", "why_tests_cant": "selection algorithm over all multisets", "anchors": ["include/rovio/FilterStates.hpp:getMedianDepthParameters"]}
{"id": "C54", "title": "The initialisation state machine never processes data before a reset is complete", "statement": "No measurement enters the filter while a reset is outstanding, the next IMU message completes a requested reset with exactly the requested kind and pose and leaves the node initialised, and requests made while a reset is outstanding are ignored (although the service reports success). Pose measurements carry the covariance of the last odometry message processed.", "quantifier": "every interleaving of IMU, image, pose, velocity messages and reset requests", "why_tests_cant": "all interleavings", "anchors": ["include/rovio/RovioNode.hpp:imuCallback,imgCallback,groundtruthCallback,velocityCallback,requestReset,requestResetToPose"]}
{"id": "C55", "title": "Multi-camera image sets are time-consistent and complete", "statement": "An image set handed to the filter contains one image of every camera, all received with the same time stamp, and each received image is part of at most one set, for every arrival order, loss and duplication of images. With one camera every image is handed over at once, with two cameras the second image of a new stamp completes the set; with three or more cameras no set is ever handed over, and a half-collected set survives a reset.", "quantifier": "every sequence of image messages and number of cameras", "why_tests_cant": "all arrival orders and losses", "anchors": ["include/rovio/RovioNode.hpp:imgCallback", "include/rovio/ImgUpdate.hpp:ImgUpdateMeasAuxiliary"]}
{"id": "C56", "title": "Published point-cloud fields do not overlap and stay in the buffer", "statement": "For every capacity, number of levels and patch size and every set of valid features, all bytes written to the point-cloud and patch messages lie inside the message buffer, and afterwards every declared field of every slot reads back exactly the value that belongs there (so no two fields or features overlap); invalid slots have identifier -1 and NaN elsewhere in the point cloud, while in the patch message their old patch data remains.", "quantifier": "every template configuration and set of valid features", "why_tests_cant": "all configurations", "anchors": ["include/rovio/RovioNode.hpp:RovioNode,updateAndPublish"]}
{"id": "C57", "title": "Uncertainty rays bracket the estimated distance", "statement": "For regular, logarithmic and hyperbolic distances up to 1000 the published ray end points bracket the estimated distance and the drawn segment contains the estimated point in the coordinates of the feature's camera; for inverse distances this holds until three standard deviations exceed the parameter, beyond that both ends are closer than the estimate because a negative far distance is clamped to zero. The marker frame is announced as the IMU frame although the points are in camera coordinates.", "quantifier": "every distance state and variance", "why_tests_cant": "continuum", "anchors": ["include/rovio/RovioNode.hpp:updateAndPublish"]}
{"id": "C58", "title": "Extrinsics come from one source only", "statement": "All geometry uses the estimated extrinsics exactly when online calibration is enabled and the configured ones otherwise; consequently setExtrinsics has no effect on the geometry while online calibration is enabled.", "quantifier": "every state and camera", "why_tests_cant": "aliasing of two storage locations across all accessors", "anchors": ["include/rovio/FilterStates.hpp:qCM,MrMC,updateMultiCameraExtrinsics", "include/rovio/RovioFilter.hpp:setExtrinsics"]}
{"id": "C59", "title": "Accelerometer initialisation aligns gravity", "statement": "Initialising from an accelerometer reading of norm above 1e-6 yields an attitude that maps the measured direction onto the world vertical; otherwise the identity attitude is used; the position of an earlier reset to a pose is kept. A filter initialised at rest from a reading of gravity's magnitude does not drift.", "quantifier": "every accelerometer reading", "why_tests_cant": "continuum including antiparallel case", "anchors": ["include/rovio/FilterStates.hpp:initWithAccelerometer"]}
{"id": "C60", "title": "Triangulation is exact on consistent rays", "statement": "getDepthFromTriangulation returns the true distance for two rays to a common point with non-degenerate parallax, refuses nearly parallel rays, and never returns a distance below the requested minimum.", "quantifier": "every pair of rays and baseline", "why_tests_cant": "continuum", "anchors": ["src/FeatureCoordinates.cpp:getDepthFromTriangulation"]}
{"id": "C61", "title": "Depth uncertainty is the exact ray displacement of a pixel error", "statement": "For a unit bearing, a positive distance and a baseline not parallel to the bearing, the uncertainty returned by getDepthUncertaintyTau is the displacement along the ray that turns the line of sight of the second camera by exactly the given angle, provided the turned ray still meets the first; it is zero for a zero angle and positive for a positive angle.", "quantifier": "every bearing, baseline, distance and error angle for which the turned ray still meets the first", "why_tests_cant": "The geometry ranges over a continuum of triangles, and a test can only sample a few of them.", "anchors": ["src/FeatureCoordinates.cpp: FeatureCoordinates::getDepthUncertaintyTau"]}
{"id": "C62", "title": "Pixel covariance axes are sorted, paired and oriented", "statement": "After setPixelCov on a positive semi-definite covariance, sigma1 >= sigma2 >= 0, each sigma is the square root of the variance along the eigenvector stored under the same number, and sigmaAngle is the direction of the larger axis up to orientation. The axes with which the image update searches for a feature are those of the predicted pixel: the square of each is the variance, under the covariance of the filter, of the reprojection innovation along that axis (in the camera of the feature, or in any camera without online calibration; in front of it, within the range of the parametrisation).", "quantifier": "every positive semi-definite 2x2 covariance and either ordering of the eigenvalues by the solver; every filter state, camera and feature", "why_tests_cant": "The branch depends on the order in which the solver returns eigenvalues, over a continuum of matrices.", "anchors": ["src/FeatureCoordinates.cpp: FeatureCoordinates::setPixelCov", "include/rovio/FeatureCoordinates.hpp"]}
{"id": "C63", "title": "Average score is an average", "statement": "getAverageScore lies between the smallest and the largest non-negative part of the scores of the valid features, and is zero for an empty set.", "quantifier": "every feature set and every score assignment", "why_tests_cant": "It must hold for all occupancy patterns and scores.", "anchors": ["include/rovio/FeatureManager.hpp: FeatureSetManager::getAverageScore"]}
{"id": "C64", "title": "Corner candidates correspond one to one to detected corners", "statement": "detectFastCorners appends exactly one level-0 candidate for each detected corner within the valid radius, in detection order, keeps the candidates already in the list, and mapping a candidate back to the detection level gives the corner.", "quantifier": "every list of detected corners, level, radius and image size", "why_tests_cant": "all detector outputs and sizes", "anchors": ["include/rovio/ImagePyramid.hpp:detectFastCorners,levelTranformCoordinates"]}
{"id": "C65", "title": "Alignment pixel weights", "statement": "Configuring the alignment with a positive spread gives every pixel of the patch a weight in (0,1] that is the same on all levels, symmetric under mirroring and transposing the patch, exactly 1 at the central pixels and never increasing outwards; a non-positive spread switches the weighting off and leaves the weights unchanged.", "quantifier": "all even patch sizes, numbers of levels, spreads and previous settings", "why_tests_cant": "the weights involve a truncating conversion whose symmetry has to hold for every pixel of every patch size", "anchors": ["include/rovio/MultilevelPatchAlignment.hpp: computeWeightings"]}
{"id": "C66", "title": "Alignment Jacobian", "statement": "The rows of the alignment equations are the negative derivative of the reported (brightness-corrected) residual with respect to the pixel position, with and without estimating the brightness gain and offset. With a gradient exponent every row is multiplied by one minus the relative strength of its gradient to this power, which for images of 8 bits without warp and brightness adaptation is positive and at most one; with gain estimation it can become negative and large.", "quantifier": "all reference/extracted intensities, gradients, weights and settings", "why_tests_cant": "derivatives must hold at every point; finite differences only sample them", "anchors": ["include/rovio/MultilevelPatchAlignment.hpp: getLinearAlignEquations"]}
{"id": "C67", "title": "Alignment never leaves the images", "statement": "Setting up the alignment equations and running the iterative alignment never reads outside the pyramid images or the patch arrays, for coordinates anywhere (also outside the image), provided the requested levels exist; without a warp no further condition is needed, with a warp only the corner positions have to fit an int.", "quantifier": "all images, coordinates, levels, patches, solver answers and iteration limits", "why_tests_cant": "out-of-bounds reads depend on the exact position of every iterate, which tests only sample", "anchors": ["include/rovio/MultilevelPatchAlignment.hpp: getLinearAlignEquations, align2D", "include/rovio/Patch.hpp: isPatchInFrame, extractPatchFromImage"]}
{"id": "C68", "title": "Reduced alignment equations", "statement": "The reduced 2x2 equations handed to the filter describe the same least-squares problem as the full set of pixel equations: identical normal equations, and a cost that differs by a constant independent of the step.", "quantifier": "all equation matrices, error vectors and all QR decompositions (including column swaps) meeting the decomposition's contract", "why_tests_cant": "must hold for every matrix and either column order; tests exercise a few matrices", "anchors": ["include/rovio/MultilevelPatchAlignment.hpp: getLinearAlignEquationsReduced"]}
{"id": "C69", "title": "Reference patches are replaced only under the documented conditions", "statement": "After an image the reference patch of a feature is replaced exactly if the feature is valid, tracked in its own camera, more than the configured time has passed since the last replacement, the patch at the feature lies in the image, and its score passes both the absolute threshold and the relative one against the old patch; the warp is then reset to the identity and the time recorded. No other feature data change.", "quantifier": "every feature set, statistics, image and configuration", "why_tests_cant": "all combinations of conditions over all slots", "anchors": ["include/rovio/ImgUpdate.hpp:commonPostProcess"]}
{"id": "C70", "title": "Only in-frame, well-matched features reach the filter", "statement": "A feature is handed to the filter in a camera exactly if its patch is inside the previous frame and, unless the direct method is used, alignment succeeds at coordinates inside the new frame whose patch error does not exceed the rejection threshold; in the direct method an update is accepted exactly if the iterations converged and, with a threshold set, the patch at the estimate is in frame, its error is at most the threshold and at least two of four neighbouring samples are clearly worse. The frames are those of that camera if the images of all cameras have the same size. Exception: with images of different sizes the tests use the size of the images of the camera in which the feature lives.", "quantifier": "every state, image, threshold and matching outcome", "why_tests_cant": "all outcomes of matching", "anchors": ["include/rovio/ImgUpdate.hpp:preProcess,extraOutlierCheck"]}
{"id": "C71", "title": "A feature re-expressed in another camera comes with the matching Jacobian and warp", "statement": "The bearing and distance of a feature re-expressed in another camera have the published Jacobian as derivative (without online extrinsic calibration, and for the distance state with the regular parametrisation), its warp is the original warp followed by that derivative, and re-expressing a feature in its own camera changes neither bearing nor distance. With online calibration the columns of the extrinsic rotations have the opposite sign, for other parametrisations the distance row is the derivative of the metric distance instead of the distance state, and in the own camera the warp is rotated by the roll between two tangent bases.", "quantifier": "every state, rig, pair of cameras, feature in front of no clamping bound, and increment", "why_tests_cant": "Finite-difference tests sample a few configurations; sign errors in rarely used blocks and basis mismatches only show for particular extrinsics and rolls.", "anchors": ["include/rovio/CoordinateTransform/FeatureOutput.hpp:TransformFeatureOutputCT::evalTransform,jacTransform", "include/rovio/MultiCamera.hpp:transformFeature"]}
{"id": "C72", "title": "The recorded pose measurement is comparable to the camera pose", "statement": "After a pose update the pose recorded for display equals the estimated pose of camera 0 exactly when the noise-free innovation of that measurement vanishes (position and attitude separately), and nothing else of the state is written.", "quantifier": "every state, alignment configuration and measurement", "why_tests_cant": "The frame conversion involves five rotations; a test with identity extrinsics or alignment cannot tell a wrong order or a missing inverse.", "anchors": ["include/rovio/PoseUpdate.hpp:postProcess,evalInnovation", "include/rovio/FilterStates.hpp:WrWC,qCW"]}
{"id": "C73", "title": "Platform prediction is rigid-body kinematics driven by specific force", "statement": "Read as a function of the step length, the noise-free prediction moves the platform, to first order, as a rigid body carrying the inertial sensor: the world position changes with the world velocity, the attitude turns with the bias-corrected turn rate, and the world velocity changes with the bias-corrected specific force plus gravity (0,0,-9.81).  A resting platform whose accelerometer reads the reaction to gravity therefore stays at rest, whatever its attitude.", "quantifier": "every filter state with unit attitudes, every inertial measurement and every step length", "why_tests_cant": "Sign conventions (position expressed with the minus sign of the robocentric velocity, gravity rotated by the inverse attitude) can be wrong in ways that cancel at the attitudes a test picks.", "anchors": ["include/rovio/ImuPrediction.hpp:evalPrediction", "include/rovio/FilterStates.hpp:State"]}
{"id": "C74", "title": "Prediction transports the patch warping with the image", "statement": "For a feature whose warping is tracked, the prediction replaces the stored warping W by W' such that a patch point displaced from the bearing by W u is predicted, to first order, at displacement W' u from the predicted bearing.", "quantifier": "every state, measurement, time step and patch displacement u", "why_tests_cant": "first-order consistency over a continuum of motions and patch directions", "anchors": ["include/rovio/ImuPrediction.hpp:evalPrediction", "include/rovio/FeatureCoordinates.hpp:get_warp_nor,set_warp_nor"]}
{"id": "C75", "title": "Published pose, twist, extrinsics and bias covariances are those of the published quantities", "statement": "In the odometry and pose messages the 6x6 covariance array holds, row by row, the covariance of the published position and attitude (the filter's position block, its attitude block rotated into the body frame, and their correlations with the sign of the inverted attitude); the twist array holds the covariance of the published velocity and turn rate (the gyroscope bias covariance plus the gyroscope noise); the extrinsics and bias messages hold the covariances of the named camera's extrinsics and of the named bias. All are symmetric and positive semi-definite when the filter's covariance is.", "quantifier": "every filter state, every covariance matrix, every camera and every previous content of the message", "why_tests_cant": "A swapped row offset, a missing rotation or a dropped noise term changes entries only for states and covariances without the symmetry a test would use; the array is filled by index arithmetic.", "anchors": ["include/rovio/RovioNode.hpp:updateAndPublish", "include/rovio/CoordinateTransform/RovioOutput.hpp:ImuOutputCT,CameraOutputCT,StandardOutput"]}
{"id": "C76", "title": "Feature bearings, distances and landmark covariances in the point cloud", "statement": "The point cloud reports for each feature in use its unit bearing vector and its distance, a distance variance equal to the variance of the estimated parameter times the square of the derivative of the distance, and (without online calibration) a landmark covariance equal to the feature's covariance block propagated through the landmark's exact first-order change. The reported matrices are covariances whenever the filter's covariance is.", "quantifier": "every filter state, distance parametrisation, camera, feature slot and covariance", "why_tests_cant": "First-order exactness over four parametrisations and a continuum of bearings; a tangent basis mix-up vanishes for isotropic covariances.", "anchors": ["include/rovio/CoordinateTransform/FeatureOutputReadable.hpp:FeatureOutputReadableCT", "include/rovio/CoordinateTransform/LandmarkOutput.hpp:LandmarkOutputImuCT", "include/rovio/RovioNode.hpp:updateAndPublish"]}
{"id": "C77", "title": "The covariance of the estimate is always a covariance", "statement": "Starting from a symmetric positive semi-definite covariance and with noise matrices that are covariances, after any sequence of inertial predictions, velocity, zero velocity, image and pose updates (whatever the outlier detection rejects) and feature replacements, the covariance of the estimate is symmetric and positive semi-definite; no measurement ever increases the variance of any combination of states.", "quantifier": "every sequence of measurements, every outlier decision, every configuration and every initial covariance", "why_tests_cant": "a negative variance appears only after particular histories; the claim is about all directions of a large matrix", "anchors": ["include/rovio/ImuPrediction.hpp:jacPreviousState,jacNoise", "include/rovio/VelocityUpdate.hpp:jacState", "include/rovio/ZeroVelocityUpdate.hpp:jacState", "include/rovio/PoseUpdate.hpp:jacState,preProcess", "include/rovio/ImgUpdate.hpp:jacState", "include/rovio/FilterStates.hpp:resetFeatureCovariance"]}
{"id": "C78", "title": "The filter never gets stuck", "statement": "From a state with unit rotations, computed bearings, warpable patches and a valid covariance, and with forward time steps, positive definite measurement noise and measurements with unit attitudes, no sequence of predictions, updates and feature replacements meets a singular innovation covariance, an unset bearing or an unavailable warp: the run completes, and the final state is again of that kind, so that it can go on. From pixels: any sequence of IMU measurements, velocities, measured poses, images of any content and resets is processed to the end by a sensibly configured filter: no index leaves its array, nothing overflows and no loop runs for ever. At any point of such a history, with proper resets, unit attitudes and positive definite noise, the filter step with the next IMU measurement, velocity, pose or zero velocity has a result, rotations are unit quaternions and every feature has a direction. That includes the zero-velocity correction at the end of an image: if it is due, its result is what the filter goes on with. A correction by a feature (not iterated), once its innovation and Jacobian could be formed from the image, has a result; it is kept exactly if neither was given up and the corrected patch passes its check, otherwise the state before is kept.", "quantifier": "every sequence of measurements and feature replacements of any length, every outlier decision", "why_tests_cant": "an unavailable coordinate or a degenerate quaternion appears only after particular interleavings", "anchors": ["include/rovio/ImuPrediction.hpp:evalPrediction", "include/rovio/FilterStates.hpp:FilterState", "include/rovio/FeatureCoordinates.hpp:get_nor,get_warp_nor", "include/rovio/PoseUpdate.hpp:preProcess,postProcess"]}
{"id": "C79", "title": "The image update is linearised at what it measures", "statement": "The reprojection innovation of a feature, in whichever camera it is being tracked, is the measured minus the predicted pixel plus the noise, and the Jacobian handed to the filter is its derivative along every state increment; the predicted pixel covariance used to search for the feature uses the same Jacobian up to sign; the direct method's Jacobian is that Jacobian seen through the linear intensity equations, and a failed direct measurement yields zero innovation, zero Jacobian and cancels the iteration. Exceptions found: with online calibration the columns of the extrinsic rotations have the wrong sign when the feature is seen in another camera, and a feature behind the other camera silently uses the pixel and Jacobian of an earlier call.", "quantifier": "all states, camera models, cameras, features, measurements, noises and state increments", "why_tests_cant": "derivatives at every point of a continuum of states and camera parameters; finite differences only sample", "anchors": ["include/rovio/ImgUpdate.hpp: evalInnovation, jacState, jacNoise", "include/rovio/CoordinateTransform/PixelOutput.hpp"]}
{"id": "C80", "title": "The direct update uses all the information of the patch", "statement": "A direct update of the filter with the two reduced intensity equations gives exactly the same estimate and covariance as an update with one equation per patch pixel, for every patch, camera Jacobian and linearisation point, when both are accepted.", "quantifier": "all states, covariances, numbers of pixels, intensity equations, QR decompositions and noise levels", "why_tests_cant": "unbounded patch sizes, all covariances and equations", "anchors": ["include/rovio/ImgUpdate.hpp: evalInnovation, jacState", "include/rovio/MultilevelPatchAlignment.hpp: getLinearAlignEquationsReduced"]}
{"id": "C81", "title": "Rotations are renormalised at every step", "statement": "After every prediction, velocity, zero velocity, image and pose update all estimated rotations and bearings have unit length, however far their lengths had drifted before, as long as none was zero.", "quantifier": "all states with non-zero rotations, measurements and corrections", "why_tests_cant": "drift accumulates over arbitrarily long runs; every state", "anchors": ["include/rovio/ImuPrediction.hpp: evalPrediction", "include/rovio/RobocentricFeatureElement.hpp: fix"]}
{"id": "C82", "title": "New features start from the prior or from a triangulation", "statement": "A newly detected feature starts at the median distance with the configured relative distance variance (to first order, for every parametrisation), configured bearing covariance and no correlation to anything else; with stereo initialisation enabled and an accepted match in the next camera its distance is instead the one triangulated from the two bearings, exact for perfect bearings. Nothing else of state and covariance changes, the covariance stays valid and the order in which new features are visited does not matter. Exception: the triangulated distance gets the unscaled configured variance, which is not the configured relative variance.", "quantifier": "all states, covariances, detected features, parametrisations, camera numbers, matches and visiting orders", "why_tests_cant": "every covariance, parametrisation and geometry; hash order of the new features", "anchors": ["include/rovio/ImgUpdate.hpp:998-1047", "include/rovio/FilterStates.hpp: resetFeatureCovariance, getDepthFromTriangulation"]}
{"id": "C83", "title": "A camera projects by its calibration file", "statement": "After loading a plumb_bob, equidistant or ds calibration file the camera projects every point in front of it by the published model with the intrinsics and coefficients of the file (equidistant: undistorted within 1e-8 of the axis), whatever was loaded before; incomplete files are refused with an exception. Applying the configuration loads exactly the cameras with a file name, gives every feature slot the configured parametrisation and selects the iterated filter exactly for the direct method; a path given as ROS parameter wins over the one in the info file. Without a file a camera is an ideal pinhole with unit focal length. Exceptions: a file of an unknown model is silently ignored, skew is ignored, and the detection radius of an earlier calibration survives.", "quantifier": "all calibration files, camera objects, bearings, configurations and orders of loading", "why_tests_cant": "all parameters and bearings; histories of loads", "anchors": ["src/Camera.cpp:16-80, 250-300", "include/rovio/RovioFilter.hpp: refreshProperties", "src/rovio_node.cpp:97-112"]}
{"id": "C84", "title": "The feature tracker follows its features over any image sequence", "statement": "From start-up, every image callback of the feature tracker node completes without reading outside an image or uninitialised coordinates. A feature survives an image exactly if its patch is found again by the alignment started at its last pixel; it then keeps its identifier and slot, moves to the pixel found, counts one more image, and takes a new patch there if the patch with border lies in the image (otherwise keeps the old patch). All other features are dropped. If fewer than 50 survive, exactly min(20, free slots, number of qualifying corners) features are added, each at a detected corner of this image whose patch with border lies in the image and whose score is positive, with identifiers never used before; otherwise none. An identifier is never reused for another feature. Exceptions: the documented motion prediction from the last two pixels always predicts zero motion, and new features inherit the statistics (counters, initialisation time) of the slot's previous feature.", "quantifier": "all sequences of images and time stamps, all corner detector and pyramid results, all solver answers, all contents of uninitialised memory, all hash iteration orders", "why_tests_cant": "ranges over all image sequences, corner sets and allocator contents; tests replay a few recordings", "anchors": ["include/rovio/featureTracker.hpp:FeatureTrackerNode::imgCallback", "include/rovio/FeatureManager.hpp:FeatureSetManager::addBestCandidates", "include/rovio/MultilevelPatchAlignment.hpp:align2DComposed"]}
{"id": "C85", "title": "Every entry of the info file sets exactly its setting", "statement": "Constructing the filter, for every number of features, cameras and estimated poses, registers no setting twice and removes only registered ones. Reading an info file, whatever the order of its parts, fails exactly if an entry is missing; otherwise each setting gets the value of its documented entry and nothing else changes. In particular the camera extrinsics in effect are those of the file whether or not they are estimated online, and the alignment used for external poses is that of the file however many poses are estimated. Exceptions: a third or later estimated pose has no entries (initial value, covariance and noise cannot be set), and rotations are read component-wise, so a file with a rotation not of unit length is accepted as it is.", "quantifier": "all numbers of features, cameras and poses, all info files, all orders of reading the parts, all default keys of the library", "why_tests_cant": "the registrations are template code whose loops and conditions depend on compile-time sizes; tests instantiate a few sizes and a few files", "anchors": ["include/rovio/RovioFilter.hpp:RovioFilter::RovioFilter", "include/rovio/ImuPrediction.hpp:ImuPrediction::ImuPrediction", "include/rovio/PoseUpdate.hpp:PoseUpdate::PoseUpdate", "cfg/rovio.info"]}
{"id": "C86", "title": "Processing a recorded data set equals feeding the node live, and the recording is complete", "statement": "Running the bag loader over a bag without a reset trigger leaves the estimator exactly as if the node had received the bag's IMU and image messages live in the same order, whatever is recorded. Each published estimate after the first is recorded exactly once, right after it is published, with exactly the switched-on messages computed from that estimate, and nothing else is recorded. In every execution, with any reset trigger and any services called meanwhile, each record is a switched-on message of the latest publication; automatic resets are more than the trigger interval of estimated time apart and never happen for a non-positive interval; after one, the filter restarts with the next IMU message, at its time, at the position estimated before. Exceptions: the first estimate is not recorded; after a reset the previous messages are recorded once more; the pose-with-covariance switch records nothing; the attitude carried over by an automatic reset is lost.", "quantifier": "all bags (topics, types, order and stamps of messages), all recording switches and trigger intervals, all numbers of cameras, features and poses, all behaviours of the filter core, all callbacks and services interleaved", "why_tests_cant": "ranges over all recordings, switch settings and interleaved service calls; a test replays a few bags", "anchors": ["src/rovio_rosbag_loader.cpp:main", "include/rovio/RovioNode.hpp:RovioNode::updateAndPublish", "include/rovio/RovioNode.hpp:RovioNode::requestReset", "include/rovio/RovioFilter.hpp:RovioFilter::resetWithAccelerometer"]}
{"id": "C87", "title": "Every image measurement is weighted with the configured noise", "statement": "Whatever measurements were made or settings loaded before, each image measurement enters the filter with two independent components of the variance configured in the settings last loaded: the pixel variance when reprojection errors are used; with the direct method the intensity variance for the camera the feature was first seen in and that variance times the off-camera gain for any other camera. Exception: the off-camera gain has no effect on reprojection errors. The measurement noise enters the innovation as its Jacobian says, for every size of the noise.", "quantifier": "all histories of loading settings and of measurements in any cameras", "why_tests_cant": "the noise is a member that survives from one measurement to the next; a stale value shows only after particular histories", "anchors": ["include/rovio/ImgUpdate.hpp:ImgUpdate::refreshProperties", "include/rovio/ImgUpdate.hpp:ImgUpdate::preProcess", "include/rovio/ImgUpdate.hpp:ImgUpdate::jacNoise"]}
{"id": "C88", "title": "The image update never reads outside the images", "statement": "Every access to pixels made while an image is processed (motion detection, matching features by alignment from several seeds, the equations of the direct method, the outlier check with its samples, the tracking verdict, taking new patches, detecting and evaluating corners, matching new features in another camera) stays inside the image it reads and converts no number that does not fit an int, for all image contents, features, warps and settings, provided the images keep their size and pixels, warps, seeds and solver steps stay of moderate size (explicit bounds). A match that is reported lies completely inside the new image on all levels. Exceptions: a change of image size; positions beyond the range of an int.", "quantifier": "all image contents and sizes fitting an int, patch sizes, levels, cameras, coordinates with any cached values, reference patches, detector outputs, solver results within the bound", "why_tests_cant": "A read just outside an image rarely crashes, and only for particular positions, warps and image sizes.", "anchors": ["include/rovio/ImgUpdate.hpp: preProcess, evalInnovation, extraOutlierCheck, postProcess, commonPreProcess, finishUpdate", "include/rovio/MultilevelPatchAlignment.hpp: align2DAdaptive, align2D, getLinearAlignEquations", "include/rovio/MultilevelPatch.hpp: isMultilevelPatchInFrame, extractMultilevelPatchFromImage", "include/rovio/FeatureManager.hpp: addBestCandidates"]}
{"id": "C89", "title": "What the node sends at an update is one consistent snapshot of the estimate", "statement": "Everything sent at one update (transforms and messages) carries the time of the new estimate as its stamp and describes that estimate: looking up the transforms from a camera or the IMU to the world (and, if the pose sensor's frame is estimated, to that frame) gives exactly one answer, the estimated one; poses, twist, extrinsics, biases and landmark positions in the messages agree with it and with each other; a landmark of the point cloud, looked up in the world, is where its camera sees it. A message is sent exactly if it is due (subscriber or switch; point cloud and lines together; the pose sensor's frame only if estimated), once per topic. Between restarts, in every history of callbacks with subscribers coming and going, stamps strictly increase on every topic and for every frame. Nothing is sent before the first IMU message nor between a reset request and the next IMU message. Exceptions: all sequence numbers are 1; poses with covariance name no frame; biases name the world frame although they are in IMU coordinates.", "quantifier": "every estimate with normalised rotations, every settings and frame names that differ, every set of subscribers, every history of callbacks, every behaviour of the filter that does not go back in time", "why_tests_cant": "Consistency of all outputs for a continuum of poses and all combinations of subscribers, cameras and histories; a stale extrinsic or a stamp taken at another moment only shows for particular interleavings.", "anchors": ["include/rovio/RovioNode.hpp: RovioNode, updateAndPublish", "include/rovio/CoordinateTransform/RovioOutput.hpp: ImuOutputCT", "include/rovio/CoordinateTransform/LandmarkOutput.hpp: LandmarkOutputImuCT", "include/rovio/FilterStates.hpp: updateMultiCameraExtrinsics"]}
{"id": "C90", "title": "Drawing patches stays inside the picture and shows the patches", "statement": "Whenever there is room for it in a grey or colour picture, drawing a multilevel patch is defined (no write outside the picture's memory, no overflow of a byte), every pixel covered by it shows the finest valid level there, truncated to a byte and equal in all channels, and no other pixel changes. The debugging picture of the image update has a cell per feature for the reference and two per camera: whatever patches are drawn in whatever order, each cell shows what was drawn for that feature and camera only, and the last drawing in full. The texture of the 3D view has exactly the size of a patch and keeps nothing of the previous texture if the coarsest level is valid. In the tracker's picture the three drawings of a row each stay in their own cell. Patches extracted from byte images always have values that can be drawn. Exceptions: magnifications other than one draw the levels off centre; without a valid coarsest level the texture keeps the rim of the previous feature.", "quantifier": "every even patch size, every number of levels, features and cameras, every picture, every position with room, every sequence of drawings", "why_tests_cant": "Offsets depend on patch size, levels, channels and cell for all sizes; a write outside the picture corrupts memory silently.", "anchors": ["include/rovio/Patch.hpp: drawPatch", "include/rovio/MultilevelPatch.hpp: drawMultilevelPatch", "include/rovio/ImgUpdate.hpp: commonPreProcess, preProcess, postProcess", "include/rovio/RovioScene.hpp: initScene, drawScene", "include/rovio/featureTracker.hpp: FeatureTrackerNode"]}
{"id": "C91", "title": "The 3D view shows its objects where they are", "statement": "Whatever is done to an object of the 3D view (adding points, making lines, points, frames, cubes, tetrahedra, rectangles, grounds, clearing, colouring, moving), drawing it reads inside its buffers and shows exactly the vertices named by its indices. A vertex appears in the picture exactly if its place in the world is inside the visible pyramid, at its central projection as seen from the view point, with its colour, and nearer things hide farther ones. Lines and point sets show the points given; frames, wire cubes (exactly the twelve edges), full cubes (twelve triangles with outward unit normals), grounds and textured rectangles have the shape they are named after. A grey picture whose width is a multiple of four is shown pixel by pixel. Keys move the view point half a unit along its axes; the mouse turns it exactly while the left button is held, by 1/50 radian per pixel; over every history of events the attitude stays a rotation. setView puts the target in the middle of the picture; setYDown keeps place and viewing direction and turns the view upright up to half a step. A key runs what was registered for it last. With the light of the view every pixel shows the mean of the colours of its corners, weighted by its place between them; an object coloured as a whole shows exactly this colour, a textured one its texture. With another light of unit direction the brightness is ambient plus diffuse times the cosine of incidence. Exceptions: sides of full cubes facing the viewer are not shown; the picture is stretched by 4/3; pictures of other widths are read wrongly, possibly beyond their end; setYDown with a step that is not positive does not end.", "quantifier": "every sequence of operations on an object, every object, view point, projection setting and vertex; every history of key and mouse events; every step in (0, 2π]", "why_tests_cant": "Buffers, indices and projections have to agree for every sequence of operations and every geometry; a rendered picture can only be looked at for a few.", "anchors": ["include/rovio/Scene.hpp: InitTransform, InitInverseTransform, InitPersProjTransform, SceneObject, Scene", "src/Scene.cpp: SceneObject, Scene::RenderSceneCB, setView, setYDown, MotionCB, MouseCB", "shaders/shader.vs, shaders/shader.fs"]}
{"id": "C92", "title": "The 3D view shows the current estimate", "statement": "However often the scene has been drawn and from whatever estimates, drawing a filter state whose features have a camera, a known bearing and grey patches works and the window can be rendered from every view point. It then shows exactly that filter state: each camera's frame at its estimated pose; with each camera the features in use that belong to it and whose deformation is known, and no others; each with the closed outline of its patch at the estimated distance, in green if it is tracked in some camera, red if it is only seen, grey otherwise; with a segment along its bearing that contains its estimated position (for inverse distances: if between 0 and 1000); and with the picture of its patch spanned between the corners; the pose measurement's frame exactly if wanted; two grids one metre below the origin. Drawing changes nothing of the filter state but caches, and drawing again without a new estimate shows the same. Exceptions: the length of the depth segment comes from the variance, not the standard deviation; positions beyond 1000 are outside their segment.", "quantifier": "every history of drawn filter states, every number of features and cameras, every state, statistics, patch contents and caches of coordinates, every view point", "why_tests_cant": "What is shown must follow the estimate after every history of features appearing, disappearing and changing cameras; leftovers of earlier drawings show only in particular histories.", "anchors": ["include/rovio/RovioScene.hpp: RovioScene, initScene, drawScene", "src/rovio_node.cpp: idleFunc", "include/rovio/FilterStates.hpp: WrWC, qCW, WrWC_ext, qCW_ext"]}
{"id": "C93", "title": "A reset forgets the past", "statement": "After a reset (with a pose or with an accelerometer measurement) the filter behaves as a new filter started from the same initial state at the same time: whatever measurements, images and resets came before, the same later events lead to the same estimate, covariance, features with their identifiers, coordinates, patches and statistics, counters and timers, or both runs are undefined. Nothing of earlier features is left but patches in free slots, which nobody reads. Exceptions: the external pose alignment is not re-armed (C44), a half-collected image set survives (C55), an accelerometer reset keeps the position of an earlier pose reset (C59). Assigning a filter state that holds features does not copy their patches; identifiers start again after a reset.", "quantifier": "every past (sequence of IMU measurements, images and resets), every initial state without features, every later sequence of events, every behaviour of the image processing and the filter update that does not read patches of free slots", "why_tests_cant": "Leftovers of the past show only in later events that happen to touch them; all pairs of pasts and futures must be covered.", "anchors": ["include/rovio/RovioFilter.hpp: resetWithPose, resetWithAccelerometer", "include/rovio/FeatureManager.hpp: FeatureManager::operator=, FeatureSetManager", "include/rovio/FilterStates.hpp: FilterState", "include/rovio/ImgUpdate.hpp: commonPreProcess, preProcess, postProcess, commonPostProcess"]}
{"id": "C94", "title": "What scratch memory held has no influence on the estimate", "statement": "Temporary patches, newly constructed feature coordinates and the feature output members are read and written by the image update without being part of the filter state. Whatever they contain at the start of each function, the estimate, covariance, features, their coordinates, statistics and patches (pixels, border, scores and computed gradients of the levels in use) after any sequence of IMU measurements, pose and velocity updates, images and resets are the same, and if one run is undefined so is the other. In particular a reset filter goes on as a new one, at the level of pixels. Needs a minimal absolute Shi-Tomasi score of at least -1 (the score given to candidates outside the image); below that uninitialised patches become features.", "quantifier": "every content of scratch memory at every call, every sequence of measurements, images and resets, every image, camera calibration and setting with an even patch size, every filter library update", "why_tests_cant": "A test runs with the memory contents it happens to have; use of uninitialised or stale data shows only for other contents.", "anchors": ["include/rovio/ImgUpdate.hpp: mlpTemp1_, mlpTemp2_, alignment_, featureOutput_, tempCoordinates_, candidates_, commonPreProcess, preProcess, evalInnovation, jacState, extraOutlierCheck, postProcess, commonPostProcess", "include/rovio/MultilevelPatchAlignment.hpp: align2DAdaptive, align2D, getLinearAlignEquations, mlpTemp_, extractedPatches_", "include/rovio/MultilevelPatch.hpp: extractMultilevelPatchFromImage, computeMultilevelShiTomasiScore", "include/rovio/FeatureCoordinates.hpp: FeatureCoordinates", "include/rovio/FeatureManager.hpp: addBestCandidates"]}
{"id": "C95", "title": "Origin and heading of the world frame are arbitrary", "statement": "Only gravity ties the filter to a world frame. A filter started in a world frame with another origin and another heading does the same in that frame: after any sequence of IMU measurements, images and velocity measurements, position, attitude, camera poses and their covariance are those of the first filter expressed in the other frame, and velocity, biases, extrinsics, features, the remaining variances and correlations are identical; if one run is undefined so is the other. In particular a user may choose origin and heading when resetting to a pose. Needs equal position noise in both horizontal directions of the prediction (and, for resets, equal initial variances); with different ones the heading matters. This holds for the whole filter from pixels to estimate, with single corrections and with the iterated image update.", "quantifier": "every turn about the vertical, every shift, every pair of states that differ by it, every sequence of IMU measurements, images (any image processing that does not look at the pose), velocity measurements, zero velocity updates, all settings with equal horizontal position noise", "why_tests_cant": "A test compares a few headings on one recording; that no step, Jacobian or noise term depends on the heading must hold for every pose, covariance and history.", "anchors": ["include/rovio/ImuPrediction.hpp: evalPrediction, jacPreviousState, jacNoise", "include/rovio/FilterStates.hpp: State, initWithImuPose, WrWC, qCW", "include/rovio/ImgUpdate.hpp: jacState, evalInnovation, postProcess", "include/rovio/VelocityUpdate.hpp: evalInnovation, jacState", "include/rovio/ZeroVelocityUpdate.hpp: evalInnovation, jacState"]}
{"id": "C96", "title": "Only differences of time stamps matter", "statement": "A recording in which all stamps (of images, IMU messages, pose and velocity messages, resets) are later by a constant gives the same result: the node passes the same measurements to the filter at times later by that constant, from its construction on, and the filter ends with the same estimate, covariance, features, patches and feature management decisions; only the times in the feature statistics are later by the constant. If one run is undefined so is the other.", "quantifier": "every shift of the clock (negative ones too), every sequence of messages in any order of stamps, every sequence of IMU measurements, pose and velocity updates, images and resets, all images, all settings with a minimal absolute Shi-Tomasi score of at least -1, whatever scratch memory holds", "why_tests_cant": "A test replays one recording at a few start times; that no comparison, statistic or initial value refers to the zero of the clock must hold for every history and shift.", "anchors": ["include/rovio/RovioNode.hpp: imgCallback, imuCallback", "include/rovio/ImgUpdate.hpp: commonPreProcess, preProcess, postProcess, commonPostProcess, ImgUpdateMeasAuxiliary", "include/rovio/FeatureStatistics.hpp: resetStatistics, increaseStatistics, isGoodFeature", "include/rovio/RovioFilter.hpp: resetWithPose, resetWithAccelerometer"]}
{"id": "C97", "title": "Position and heading never become more certain than at the start", "statement": "Images, IMU and velocity measurements say nothing about absolute position and heading, and the filter never pretends otherwise. Started with any diagonal covariance, after any sequence of IMU measurements, images, feature management, velocity measurements and zero velocity updates the reported variance of the position in every direction and the reported variance of the heading are at least those of the start. The initial variances of position and heading have no influence on the estimate, on whether a run is defined, or on any variance or correlation not involving the pose: additional uncertainty of this kind is carried along exactly (a heading error displaces the position). This holds for the whole filter from pixels to estimate, with single corrections and with the iterated image update.", "quantifier": "every state, every initial covariance, every sequence of IMU measurements, images (any image processing whose decisions do not look at the variances of the pose), velocity measurements, zero velocity updates, all noise settings", "why_tests_cant": "Spurious information about unobservable directions accumulates over long histories and depends on every Jacobian; a test sees one trajectory.", "anchors": ["include/rovio/ImuPrediction.hpp: jacPreviousState", "include/rovio/ImgUpdate.hpp: jacState", "include/rovio/VelocityUpdate.hpp: jacState", "include/rovio/ZeroVelocityUpdate.hpp: jacState", "include/rovio/FilterStates.hpp: resetFeatureCovariance, initWithImuPose"]}
{"id": "C98", "title": "The iteration order of the set of new features has no influence", "statement": "The features found in an image are returned in a hash set and initialised one after the other (distance, covariance, stereo match). The result of the image update, and of any later history, does not depend on the order in which the standard library enumerates that set, whatever the memory of the update held. The order of the hash sets of candidates during the selection is different: with two equally good candidates and one free slot it decides which of them becomes a feature (finding).", "quantifier": "every filter state, every image, all settings with or without stereo initialisation, every two orders of enumeration, every contents of scratch memory, every history", "why_tests_cant": "A test runs with the one order its standard library happens to produce.", "anchors": ["include/rovio/ImgUpdate.hpp: commonPostProcess", "include/rovio/FeatureManager.hpp: addBestCandidates", "include/rovio/FilterStates.hpp: resetFeatureCovariance"]}
{"id": "C99", "title": "The brightness of the images has no influence on the estimate", "statement": "With the intensity offset enabled, let every image of every camera be brighter or darker by an amount of its own (exposure, no grey value cut off). From a start without features, after any history of IMU measurements, further updates, images and resets, state, covariance, features, their numbers, coordinates and matches are exactly the same, whatever the scratch memory held. The pyramid of a brighter image is the brighter pyramid. Exceptions: without the intensity offset brightness matters, and a change of contrast matters even with the intensity sqew enabled because the matching error does not compensate for it (findings).", "quantifier": "every history, every sequence of images for every camera, every sequence of brightness offsets, all settings with the intensity offset enabled, every contents of scratch memory", "why_tests_cant": "A test compares a few images with a few offsets; the claim is about every sequence of offsets over a whole life, including features initialised in one exposure and matched in another.", "anchors": ["include/rovio/MultilevelPatchAlignment.hpp: getLinearAlignEquations, align2DAdaptive", "include/rovio/MultilevelPatch.hpp: computeAverageDifference", "include/rovio/Patch.hpp: computeGradientParameters", "include/rovio/ImagePyramid.hpp: halfSample", "include/rovio/ImgUpdate.hpp: preProcess, postProcess, commonPostProcess"]}
{"id": "C100", "title": "What an image does to the features depends only on features and camera mounting", "statement": "Let two filters agree in their features (number, coordinates, distance, patches, statistics, matches), in the mounting of the cameras in use and in the covariance of these (that of the mounting only if it is calibrated online), and differ in anything else: position, attitude, velocity, biases, additional poses, their variances and all correlations with them. Process the same images, any number of them, without zero-velocity updates: either both runs are undefined, or the same features are matched, accepted, updated, removed and added, and the filters agree again in features, mounting and their covariance. Scratch memory has no influence. For updates with a single correction; with the iterated update of the direct method correlations with the differing states can decide whether a feature is matched (C107).", "quantifier": "every pair of filter states that agree in features and mounting, all images, all settings without zero-velocity updates, every outlier test, every contents of scratch memory, any number of images", "why_tests_cant": "A test changes some state entries of some state; the claim is about all states, all covariances and correlations, and every decision on the way.", "anchors": ["include/rovio/ImgUpdate.hpp: preProcess, evalInnovation, jacState, extraOutlierCheck, postProcess, commonPostProcess", "include/rovio/CoordinateTransform/FeatureOutput.hpp: evalTransform, jacTransform", "include/rovio/FilterStates.hpp: getMedianDepthParameters, resetFeatureCovariance"]}
{"id": "C101", "title": "The frame of the external poses is arbitrary", "statement": "Express the same external poses (with their covariances) in another frame, turned about any axis and with another origin, and convert the configured pose of the frame if it is not estimated. If the configured position noise of the poses and the uncertainty of the estimated frame position are the same in all directions, either both filters are undefined or the odometry (state, features, covariance, recorded poses, outlier decisions) is identical at every time and the estimated pose of the frame is the same pose expressed in the other frame. With the automatic initial alignment nothing has to be converted: filters started alike give identical odometry whatever frame the poses are given in.", "quantifier": "every rotation and origin of the external frame, every run of predictions, images, velocity, zero-velocity and pose updates (with or without feedback, with or without pose covariances, position-only or attitude-only), all states and covariances", "why_tests_cant": "A test tries a few frames and a few runs; the claim ranges over all frames and all runs, including every outlier decision.", "anchors": ["include/rovio/PoseUpdate.hpp: evalInnovation, jacState, preProcess, postProcess, PoseOutlierDetection", "include/rovio/RovioNode.hpp: groundtruthCallback, groundtruthOdometryCallback"]}
{"id": "C102", "title": "Images act on the estimate only through corrections with matched features", "statement": "Processing one image changes estimate and covariance only by Kalman corrections, each with the bearing of one feature in one camera, by additions and removals of features with the reset of their covariance, and by the zero-velocity update if it is due. The corrections belong to visits of features that were in frame and matched, in the order of the visits, at most one for each visit and exactly one for each visit reported as tracked. If no feature is found in the image (covered camera, darkness, all features out of frame) and no zero-velocity update is due, position, velocity, attitude, biases, camera mounting and additional poses stay as they are, so do pixel, bearing and distance of every feature that survives, and so does the covariance of all of these. Over a whole life, estimate and covariance are those of a filter that gets the IMU measurements and velocities, corrections with bearings, feature management and zero-velocity updates, and nothing else.", "quantifier": "every image content, every state of the filter and its features, every covariance, every configuration of matching, outlier test and noise, every content of the scratch memory; every sequence of IMU measurements, velocities and images", "why_tests_cant": "A test inspects a few images; the claim ranges over all images, all orders of visits and all outcomes of matching and outlier tests.", "anchors": ["include/rovio/ImgUpdate.hpp: preProcess, postProcess, commonPreProcess, commonPostProcess, evalInnovation, jacState", "include/rovio/FilterStates.hpp: resetFeatureCovariance, initializeFeatureState"]}
{"id": "C103", "title": "The axes of the IMU are arbitrary", "statement": "Mounting the IMU in another orientation at the same place (or naming its axes differently) and converting the calibration accordingly changes nothing in the estimated trajectory: after any sequence of IMU measurements, images, velocities, zero-velocity updates and external poses, position, features, camera poses, camera velocities and their covariances, the recorded external pose and the frame of the external poses are identical, and velocity, biases and mountings are the same vectors and rotations expressed along the new axes, with the covariances turned accordingly. This needs noise settings that do not prefer one of the axes (accelerometer, gyroscope, biases, camera mounting, zero velocity). Exception (finding): the covariance of the rate in the camera output depends on the axes, because the noise of the gyroscope is added along the axes of the IMU instead of those of the camera.", "quantifier": "every orientation of the IMU, every state, covariance and configuration without preferred axis, every image processing and feature management that depends on the physical estimate, every sequence of inputs", "why_tests_cant": "Tests run one mounting and a few motions; a wrong frame in a Jacobian or in a noise term shows only for particular orientations and motions and is hidden by noise.", "anchors": ["include/rovio/ImuPrediction.hpp: evalPrediction, jacPreviousState, jacNoise", "include/rovio/PoseUpdate.hpp: evalInnovation, jacState, preProcess, postProcess", "include/rovio/VelocityUpdate.hpp: evalInnovation, jacState", "include/rovio/ZeroVelocityUpdate.hpp: evalInnovation", "include/rovio/CoordinateTransform/RovioOutput.hpp: CameraOutputCT", "include/rovio/CoordinateTransform/FeatureOutput.hpp: jacTransform"]}
{"id": "C104", "title": "A feature that has not moved is found where it is", "statement": "If the image shows the reference patch at the start coordinates on all requested levels, with the same intensities or, when offset and gain are estimated, with a different brightness and a contrast of at least one half, and the patch has texture in two directions, then alignment succeeds in its first step and returns the start pixel and the warp unchanged, whatever the number of iterations, tolerance, robust threshold, (positive) pixel weighting and kind of pyramid. In particular a patch taken from an image is found in that image where it was taken. If the patch has no texture in two directions (edges, flat patches, patches whose gradient is explained by a change of brightness), alignment reports failure and changes nothing. The adaptive alignment with any number of start points succeeds as well, and the place it returns shows the reference patch up to a constant brightness.", "quantifier": "every image, pyramid, patch size, range of levels, coordinates with or without a warp, reference patch, brightness change, setting of the alignment and least-squares solver", "why_tests_cant": "Tests align a few synthetic patches; whether a true match can be rejected or moved depends on the texture, the weights, the robust threshold and the brightness estimate of each patch.", "anchors": ["include/rovio/MultilevelPatchAlignment.hpp: align2D, align2DAdaptive, getLinearAlignEquations", "include/rovio/MultilevelPatch.hpp: extractMultilevelPatchFromImage, isMultilevelPatchInFrame"]}
{"id": "C105", "title": "Without online calibration the estimated camera mounting has no influence", "statement": "The filter state holds estimates of the camera mounting with covariance, correlations and process noise even when online calibration is off. Let two filters without online calibration differ in these only (including resets to such states and the configured process noise of the mounting) and process the same IMU measurements, velocities and images, in any order and number: either both runs are undefined, or they end with the same estimates, covariance, features, patches, statistics and matches, except for the estimated mounting, its covariance and correlations. The same holds for pose measurements. The published poses and velocities of IMU and cameras and their covariances are the same. Exception: the message of the camera mounting carries the covariance of the unused estimate next to the configured mounting. For updates with a single correction; with the iterated update of the direct method correlations with the differing states can decide whether a feature is matched (C107).", "quantifier": "every pair of filter states without online calibration that differ in the mounting only, every covariance and correlation of it, every process noise of it, all inputs and settings, any number of steps", "why_tests_cant": "A leak would need one wrong column in one Jacobian or one place that reads the estimate instead of the configured mounting; tests with small or zero initial uncertainty of the mounting do not show it.", "anchors": ["include/rovio/FilterStates.hpp: MrMC, qCM, doVECalibration_", "include/rovio/ImuPrediction.hpp: evalPrediction, jacPreviousState, jacNoise", "include/rovio/CoordinateTransform/FeatureOutput.hpp: jacTransform", "include/rovio/CoordinateTransform/RovioOutput.hpp: CameraOutputCT", "include/rovio/PoseUpdate.hpp: preProcess, jacState, postProcess", "include/rovio/RovioNode.hpp: extrinsics message"]}
{"id": "C106", "title": "Slots without a feature have no influence", "statement": "The filter state always has all its feature slots, each with an estimate, covariance, correlations and process noise, even when no feature is in them. Let two filters differ only in the slots that are not in use and perform the same steps (inertial measurements, velocities, poses, zero velocity updates, image corrections for features in use and changes of the features that are decided from what is in use), in any order and number. If both runs are defined, the results differ only in the slots that are not in use at the end: pose, velocity, biases, mounting, additional poses, features in use and the covariance of all these are the same, also for features started later in a slot that was not in use. Both runs are defined if noise is positive, inputs are proper and every slot has a bearing. Published poses, velocities and their covariances do not depend on slots that are not in use.", "quantifier": "every pair of filters that differ in unused slots only, every content and covariance of these slots, every set of slots in use and every history of it, all measurements and settings, any number of steps", "why_tests_cant": "Unused slots are predicted, corrected and have process noise like all others; a leak needs one wrong block index or one missing reset, and shows only for histories in which a slot was used before.", "anchors": ["include/rovio/FilterStates.hpp: resetFeatureCovariance, initWithImuPose", "include/rovio/ImuPrediction.hpp: evalPrediction, jacPreviousState, jacNoise", "include/rovio/CoordinateTransform/FeatureOutput.hpp: jacTransform", "include/rovio/ImgUpdate.hpp: jacState, commonPostProcess", "include/rovio/CoordinateTransform/RovioOutput.hpp: ImuOutputCT, CameraOutputCT"]}
{"id": "C107", "title": "What an iterated image update may do to the estimate", "statement": "With the direct method every feature is matched by an iterated Kalman update from several starting points. Whatever the images: if the update of a feature is reported as failed, estimate and covariance are unchanged. If it is reported as successful, the estimate was reached from a starting point within the uncertainty ellipse of the predicted pixel by at most the configured number of Kalman corrections, each relative to the prediction and linearised at the last point; the last one moved the estimate by at most the termination threshold; the outlier check accepted it (with a rejection threshold: the feature is in the image of the camera and its patch there differs from the stored one by at most the threshold); all other accepted results are within twice the termination threshold; and the covariance is that of this last correction. The covariance remains one and no variance grows. Exceptions: if the alignment cannot be computed at the estimate, an update is reported as successful without a measurement; and whether an update converges depends on correlations with states that images do not determine (C100 and C105 hold with a single correction only).", "quantifier": "every estimate, covariance, noise, outlier test, image, feature, number of iterations and starting points, and every contents of scratch memory", "why_tests_cant": "The result of the iterations depends on images, covariance and the order of starting points; a test sees some convergent cases, not every way in which an iteration can end.", "anchors": ["include/rovio/ImgUpdate.hpp: evalInnovation, generateCandidates, extraOutlierCheck, jacState, hasConverged_, cancelIteration_", "include/rovio/RovioFilter.hpp: mode_, useDirectMethod_"]}
{"id": "C108", "title": "Yaw, pitch and roll are those of the attitude", "statement": "For every attitude whose first body axis is not vertical, the reported yaw, pitch and roll are the unique angles with yaw and roll in (-pi, pi] and pitch strictly between -pi/2 and pi/2 such that turning by roll, pitch and yaw in this order is the attitude, and the reported Jacobian is their derivative with respect to the attitude (where yaw and roll do not jump). With a vertical first axis yaw and roll are reported as zero and different attitudes are reported alike.", "quantifier": "all attitudes, all motions through them", "why_tests_cant": "The Jacobian test of the node uses one random attitude; range, uniqueness and the singular attitude concern all of them.", "anchors": ["include/rovio/CoordinateTransform/YprOutput.hpp: AttitudeToYprCT::evalTransform, jacTransform", "include/rovio/RovioNode.hpp: makeTest"]}
{"id": "C109", "title": "A measurement moves the estimate no further than its outlier test and the uncertainty allow", "statement": "A velocity, a detected standstill, a matched feature or an external pose (not the first one, which may align the frames) changes the estimate by an error vector whose square in every direction is at most the threshold of the measurement's outlier test times the variance lost in this direction, so at most the threshold times the variance: a wrong measurement that passes the test cannot move any coordinate by more than the root of the threshold times its standard deviation. For any number of measurements between two predictions the thresholds add up; for one image the threshold is multiplied by the number of visits that got as far as the filter, and that of the zero-velocity update is added if it is due. A coordinate whose variance is zero is not changed, whatever the outlier tests are.", "quantifier": "every measurement and every sequence of them, every image and content of memory, every estimate, covariance, noise setting and threshold, every direction of the state space", "why_tests_cant": "The bound has to hold for the worst measurement that still passes the test, in every direction; tests feed typical measurements.", "anchors": ["include/rovio/VelocityUpdate.hpp: evalInnovation, jacState", "include/rovio/ZeroVelocityUpdate.hpp: evalInnovation, jacState", "include/rovio/PoseUpdate.hpp: evalInnovation, jacState, preProcess", "include/rovio/ImgUpdate.hpp: evalInnovation, jacState, preProcess, postProcess"]}
{"id": "C110", "title": "Inputs that agree with the estimate leave it alone, and a measurement touches nothing unrelated", "statement": "A filter whose platform is estimated at rest keeps exactly this estimate over any number of inputs in any order, as long as the IMU measures its biases and gravity, measured velocities and poses are the estimated ones and matched features are where they are predicted: no input fails, and position, velocity, attitude, biases, mounting of the cameras and additional poses do not drift; the features do not move either unless they are managed. Every single velocity, detected standstill, match or pose leaves each coordinate that is not correlated with what it is about as it was, together with its variance and all its correlations. It is about: the velocity; bearing and distance of the matched feature and the mounting of the cameras; position, attitude and the additional poses. An image in which every feature is found where the estimate predicts it - with the direct method: that shows there, up to brightness and contrast, the patch of every feature that was in frame before - leaves the estimate of the platform as it is, whatever features it removes or adds, and bearing, camera and distance of every feature that survives; it may be moving, unless a zero-velocity update is due. The same holds from image to image: a filter at rest that is fed with IMU measurements of its biases and gravity, velocities of zero, the poses it estimates and images that agree with the estimate of their time, in any order and number, keeps its estimate of the platform for ever, and bearing, camera and distance of a feature as long as it is tracked, also features detected in between. With the direct method this holds for a single correction per feature and for an iterated one that starts at the estimate, whatever the number of iterations. With alignment at start the poses need not be the estimated ones: one and the same measured pose, whatever it is, in any number leaves position, velocity, attitude, biases and mounting of the cameras as they are.", "quantifier": "every sequence of inputs of any length, every estimate, covariance, noise setting, outlier test and configuration, every image and set of features", "why_tests_cant": "Drift shows after any number of steps and for any covariance; tests run for a while with typical values.", "anchors": ["include/rovio/ImuPrediction.hpp: evalPrediction", "include/rovio/VelocityUpdate.hpp: evalInnovation, jacState", "include/rovio/ZeroVelocityUpdate.hpp: evalInnovation, jacState", "include/rovio/PoseUpdate.hpp: evalInnovation, jacState", "include/rovio/ImgUpdate.hpp: jacState", "include/rovio/ImgUpdate.hpp: evalInnovation, preProcess, postProcess", "include/rovio/MultilevelPatchAlignment.hpp: getLinearAlignEquations"]}
{"id": "C111", "title": "The artificial horizon and the uncertainty ellipses show the estimate", "statement": "In the frame visualisation the dark part of the indicator is the ground as the camera sees it: up to rounding to degrees, exactly the points of the rim are filled that lie on the side of the estimated gravity, beyond a line at right angles to it whose distance from the centre is half a pixel per degree of elevation of the optical axis (towards the ground when looking up). This needs an elevation of at most 60 degrees; for a steeper camera, e.g. one looking at the ground, drawing it is undefined. The ellipse drawn for a feature has the axes of the pixel covariance: scaled standard deviations rounded to whole pixels (at least one), the first axis along the direction of the larger variance.", "quantifier": "every attitude, extrinsic calibration and camera; every positive semi-definite pixel covariance and scale", "why_tests_cant": "The arc goes through atan2, acos, asin and truncation to int; branch cuts and domain ends are only met by particular attitudes.", "anchors": ["include/rovio/ImgUpdate.hpp: drawVirtualHorizon", "src/FeatureCoordinates.cpp: drawEllipse, setPixelCov"]}
{"id": "C112", "title": "Images are kept apart", "statement": "An image pyramid that was computed from an image, or assigned from another pyramid, keeps these images until it is itself computed, assigned or destroyed, whatever happens to the image or pyramid it came from: receiving the next image does not change images that are waiting to be processed, nor the previous images of the filter, although memory is reused. Assignment to itself changes nothing. Exception: a pyramid made by copy construction shares its pixels with the original; the next image of the same size computed into the original replaces it too.", "quantifier": "every history of constructions, computations from images of any sizes and assignments among any number of pyramids with any number of levels", "why_tests_cant": "Sharing shows only for particular histories of sizes and assignments.", "anchors": ["include/rovio/ImagePyramid.hpp: ImagePyramid, computeFromImage, operator=", "include/rovio/RovioNode.hpp: imgCallback", "include/rovio/ImgUpdate.hpp: commonPostProcess"]}
{"id": "C113", "title": "Feature slots free what they have allocated, once", "statement": "Whatever is linked, allocated and assigned in whatever order, destroying a feature slot is defined: no object is deleted twice or while somebody else owns it, every object a slot refers to can be accessed as long as the slot exists, and when the slots are gone nothing they allocated is left. After the constructor of a filter state every slot has all four objects, coordinates and distance being those of its state. Exceptions: a slot must not be copy constructed (the objects are then deleted twice), nor assigned before its statistics exist.", "quantifier": "every history of constructions, links, allocations, assignments and destructions of any number of slots", "why_tests_cant": "Double deletion and leaks depend on the order of operations over the life of several objects.", "anchors": ["include/rovio/FeatureManager.hpp: FeatureManager, ~FeatureManager, operator=, allocateMissing", "include/rovio/FilterStates.hpp: initFeatureManagers, FilterState"]}
{"id": "C114", "title": "The outline drawn around a feature encloses its patch", "statement": "Around a feature in front of the camera whose deformation is known, the debugging picture shows a closed outline of four segments. Its corners are the pixels of the bearings to which the deformation moves the corners of the square that the patch takes on the coarsest level; to first order they are where the pixel deformation puts those corners, and that parallelogram has the positions of all pixels of the patch on all levels strictly inside. Drawing changes neither bearing nor deformation of the feature, and nothing is drawn for a feature behind the camera or without deformation. Exception: a corner that the camera does not see is drawn at a place left over in memory, and the outline is then not even closed.", "quantifier": "every camera, feature, deformation, patch size and number of levels, every content of uninitialised memory", "why_tests_cant": "A test sees some features; which corners are visible and what uninitialised memory holds depends on camera, bearing, deformation and history.", "anchors": ["include/rovio/MultilevelPatch.hpp: drawMultilevelPatchBorder", "include/rovio/Patch.hpp: drawPatchBorder", "src/FeatureCoordinates.cpp: get_patchCorner", "include/rovio/ImgUpdate.hpp:829-854"]}
{"id": "C115", "title": "The debugging pictures say of a feature what became of it", "statement": "After the update with a feature in a camera, the outline in the camera image is green exactly if the feature counts as tracked there and red otherwise, bright in the camera it belongs to and dim in others. A label is there exactly if it is not tracked and says why: NIF if the update was accepted but the patch left the image, MD with the distance if it was an outlier, INC if the iterations did not converge, PE otherwise. In the picture of patches the frame around the patch of a feature in a camera is green or red according to the last status there, black before; whatever is drawn in whatever order, frames and patches never cover each other or leave their cells. Exception: PE, the label for a large intensity error, is also given to exactly matching patches that were rejected for another reason.", "quantifier": "every outcome of the update, every patch size and number of levels, features and cameras, every sequence of drawings", "why_tests_cant": "A test draws some sequence for some sizes; that no drawing ever spoils another depends on all positions and orders.", "anchors": ["include/rovio/ImgUpdate.hpp:826-872 postProcess", "include/rovio/ImgUpdate.hpp:477-537 extraOutlierCheck", "include/rovio/FilterStates.hpp: drawPB_, drawPS_"]}
