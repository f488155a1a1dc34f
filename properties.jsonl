{"id": "C01", "title": "Tiles cover every ortho pixel exactly once", "statement": "The block windows used to write an ortho or pan-sharpened image lie inside the image, are non-empty, are no larger than the block shape (nor than the first window), and every image pixel lies in exactly one of them.", "quantifier": "all image heights and widths, all positive block shapes, all pixels", "why_tests_cant": "A test samples a few image/block sizes; the property is about every remainder of size modulo block and every pixel.", "anchors": ["orthority/common.py:block_windows", "orthority/ortho.py:Ortho._remap"]}
{"id": "C02", "title": "Ortho result does not depend on tile completion order", "statement": "The data band written by Ortho.process is a fixed function of its inputs: for every order in which the tile workers finish, the written image is the same, and pixel (row, col) holds the remapped value at the world position of the centre of that pixel with the DEM value at that pixel.", "quantifier": "all images, block shapes, DEMs, cameras, and all completion orders (schedules) of the worker threads", "why_tests_cant": "Thread schedules are not controllable in a unit test, and there are factorially many.", "anchors": ["orthority/ortho.py:Ortho._remap", "orthority/ortho.py:Ortho._remap_tile"]}
{"id": "C03", "title": "Tile coordinate grids sit on ortho pixel centres", "statement": "The x and y grid that a tile worker passes to the camera equals the ortho transform applied to the centre of each of the tile's pixels, in the coordinates of the whole ortho image.", "quantifier": "all affine transforms, tiles and pixels", "why_tests_cant": "Needs an identity over all transforms and offsets, not a comparison on one image.", "anchors": ["orthority/ortho.py:Ortho._remap_tile", "orthority/ortho.py:Ortho._remap"]}
{"id": "C04", "title": "Orthorectifying band by band equals doing all bands at once", "statement": "Ortho.process(per_band=True) and process(per_band=False) produce the same data bands and the same validity mask.", "quantifier": "all multi-band source images, cameras, DEMs and option values", "why_tests_cant": "Requires comparing two executions on every possible image content; disagreement needs specific pixel values.", "anchors": ["orthority/ortho.py:Ortho._remap", "orthority/ortho.py:Ortho._remap_tile", "orthority/camera.py:Camera.remap"]}
{"id": "C05", "title": "Ortho data does not depend on the block size", "statement": "The remapped data and mask of a pixel do not depend on how the ortho image is cut into blocks.", "quantifier": "all pairs of block shapes, all images, cameras and DEMs, with and without mask dilation", "why_tests_cant": "Two tilings must agree at every seam for all inputs; tests use one tiling.", "anchors": ["orthority/ortho.py:Ortho._remap_tile", "orthority/camera.py:FrameCamera.remap"]}
{"id": "C06", "title": "remap marks exactly the pixels without image data", "statement": "Camera.remap sets to nodata and masks every pixel whose world position projects outside the source image (or is NaN) and masks no pixel that received a source value.", "quantifier": "all images, grids (including NaN), nodata values and cameras", "why_tests_cant": "The claim relates every pixel value, including values that happen to equal nodata, with the mask.", "anchors": ["orthority/camera.py:Camera.remap"]}
{"id": "C07", "title": "Dilated mask only grows and masked pixels are nodata", "statement": "When an undistorted camera dilates the remap mask, every pixel masked before stays masked, every masked pixel has the nodata value in every band, and pixels that are not masked keep their remapped value.", "quantifier": "all masks, kernel sizes, band counts and nodata values", "why_tests_cant": "Monotonicity over all masks and structuring elements.", "anchors": ["orthority/camera.py:FrameCamera.remap"]}
{"id": "C08", "title": "remap works with its documented default nodata", "statement": "Calling remap() without nodata on a camera behaves as if the documented default for the data type had been passed.", "quantifier": "all cameras (any type, distort or not), interpolations and supported data types", "why_tests_cant": "It is a statement about all option combinations, some of which take a different code path.", "anchors": ["orthority/camera.py:FrameCamera.remap", "orthority/camera.py:Camera.remap"]}
{"id": "C09", "title": "Grid expansion contains and is the tightest window", "statement": "expand_window_to_grid returns an integer window that contains the given window grown by expand_pixels, and every integer window with that property contains it.", "quantifier": "all real window offsets and sizes and all expansions", "why_tests_cant": "Real-valued input space; off-by-one errors appear at boundary values only.", "anchors": ["orthority/common.py:expand_window_to_grid"]}
{"id": "C10", "title": "UTM zone choice is valid for every position", "statement": "utm_crs_from_latlon returns EPSG 32601..32660 in the north and 32701..32760 in the south, the central meridian of the zone is within 3 degrees of the longitude, and the choice has period 360 in longitude.", "quantifier": "all real latitudes and longitudes", "why_tests_cant": "Continuum of positions with boundaries at each zone edge and at the antimeridian.", "anchors": ["orthority/common.py:utm_crs_from_latlon"]}
{"id": "C11", "title": "Type conversion saturates and never wraps", "statement": "convert_array_dtype maps each finite value to the nearest representable integer of the destination type (ties to even), saturating at the type limits; NaN survives conversion between floating point types, and the result is in range.", "quantifier": "all supported source and destination types and all values", "why_tests_cant": "Every pair of types and every value, including those at and beyond the limits.", "anchors": ["orthority/common.py:convert_array_dtype"]}
{"id": "C12", "title": "Output profile is consistent", "statement": "create_profile never returns both a nodata value and a mask request, returns a mask request exactly when asked or when JPEG compression is in use and not overridden, allows JPEG only for data types it supports, and puts user creation options in place of the defaults.", "quantifier": "all data types, compress values, write_mask values, drivers and creation options", "why_tests_cant": "Full decision table over an unbounded set of creation options.", "anchors": ["orthority/common.py:create_profile"]}
{"id": "C13", "title": "Overview levels are well formed", "statement": "build_overviews builds levels 2, 4, 8 ... with every overview at least 256 pixels in its smallest dimension, at most eight of them, no gaps, and as many as those limits allow.", "quantifier": "all image sizes", "why_tests_cant": "All sizes, in particular around each power of two.", "anchors": ["orthority/common.py:build_overviews"]}
{"id": "C14", "title": "Existing files are never modified without overwrite", "statement": "With overwrite=False, no sequence of library write operations changes or deletes a file that existed before it was called; a write to an existing path raises and leaves the file as it was.", "quantifier": "all file systems, all sequences of write operations, all failure points", "why_tests_cant": "Histories and failure points are unbounded.", "anchors": ["orthority/common.py:OpenRaster", "orthority/common.py:Open", "orthority/param_io.py:write_int_param", "orthority/param_io.py:write_ext_param", "orthority/factory.py:FrameCameras.write_param"]}
{"id": "C15", "title": "write_param is all-or-nothing", "statement": "If FrameCameras.write_param raises, no parameter file has been created or changed.", "quantifier": "all parameter sets, file systems and failure points", "why_tests_cant": "Needs every failure point.", "anchors": ["orthority/factory.py:FrameCameras.write_param", "orthority/param_io.py:write_ext_param"]}
{"id": "C16", "title": "Schema validation is sound and complete", "statement": "validate_collection accepts a decoded JSON/YAML value exactly when it conforms to the schema: same keys present, types match, list items match.", "quantifier": "all schemas and all values, arbitrarily nested", "why_tests_cant": "Recursive, unbounded input space.", "anchors": ["orthority/common.py:validate_collection"]}
{"id": "C17", "title": "Malformed GCP, exterior and RPC files give ParamError only", "statement": "Reading any decodable GCP GeoJSON, exterior GeoJSON or RPC YAML content either returns parameters or raises ParamError; no other exception escapes.", "quantifier": "all JSON / YAML values", "why_tests_cant": "Unbounded input space; each missing key or wrong type is a different path.", "anchors": ["orthority/param_io.py:read_oty_gcps", "orthority/param_io.py:OtyReader", "orthority/param_io.py:read_oty_rpc_param"]}
{"id": "C18", "title": "Malformed interior parameter files give ParamError only", "statement": "Reading any decodable interior parameter YAML either returns parameters or raises ParamError.", "quantifier": "all YAML values", "why_tests_cant": "Unbounded input space.", "anchors": ["orthority/param_io.py:read_oty_int_param"]}
{"id": "C19", "title": "GCP files round trip", "statement": "Reading a file written by write_gcps gives back the same GCPs per image, in order, with the same coordinates and IDs.", "quantifier": "all GCP dictionaries with at least one GCP per image (an image without GCPs does not come back)", "why_tests_cant": "Unbounded structured input.", "anchors": ["orthority/param_io.py:write_gcps", "orthority/param_io.py:read_oty_gcps"]}
{"id": "C20", "title": "Interior parameter files round trip", "statement": "Reading a file written by write_int_param gives back the same cameras with the same parameters.", "quantifier": "all interior parameter dictionaries, all camera IDs", "why_tests_cant": "Unbounded structured input; specific IDs matter.", "anchors": ["orthority/param_io.py:write_int_param", "orthority/param_io.py:read_oty_int_param"]}
{"id": "C21", "title": "Exterior parameter files round trip", "statement": "Reading a file written by write_ext_param gives back every image's position, rotation and camera ID, and the CRS.", "quantifier": "all non-empty exterior parameter dictionaries, and projected CRSs whose string form parses to the same CRS", "why_tests_cant": "Unbounded structured input.", "anchors": ["orthority/param_io.py:write_ext_param", "orthority/param_io.py:OtyReader"]}
{"id": "C22", "title": "RPC parameter files round trip", "statement": "Reading a file written by write_rpc_param gives back the same models.", "quantifier": "all RPC parameter dictionaries with values of the types that the format requires", "why_tests_cant": "Unbounded structured input.", "anchors": ["orthority/param_io.py:write_rpc_param", "orthority/param_io.py:read_oty_rpc_param"]}
{"id": "C23", "title": "Parallel readers are schedule independent", "statement": "read_im_rpc_param, read_im_gcps and the EXIF reader return entries in file order with each file's own parameters for every completion order, and when files fail, the error raised is that of the first failing file.", "quantifier": "all file lists and all completion orders", "why_tests_cant": "Schedules cannot be enumerated by tests.", "anchors": ["orthority/param_io.py:read_im_rpc_param", "orthority/param_io.py:read_im_gcps", "orthority/param_io.py:ExifReader"]}
{"id": "C24", "title": "ODM/OpenSfM camera IDs stay linked", "statement": "For every accepted OpenSfM reconstruction, a shot's camera ID in the exterior parameters names the interior parameters of the camera that the shot refers to in the file.", "quantifier": "all reconstruction files", "why_tests_cant": "Unbounded sets of IDs; prefix stripping can collide.", "anchors": ["orthority/param_io.py:OsfmReader", "orthority/param_io.py:_read_osfm_int_param"]}
{"id": "C25", "title": "CSV format detection", "statement": "The format chosen for a CSV exterior file depends only on which field names are present, and every accepted file has the fields that the chosen format needs.", "quantifier": "all header rows", "why_tests_cant": "All subsets and orders of names.", "anchors": ["orthority/param_io.py:CsvReader._parse_fieldnames", "orthority/param_io.py:CsvReader._get_crs"]}
{"id": "C26", "title": "FrameCameras.get returns the requested image's camera", "statement": "After any history of get calls, get(filename) returns a camera whose interior parameters are those of the camera ID of the image and whose position and rotation are those of the image.", "quantifier": "all parameter sets and all histories of get calls", "why_tests_cant": "Cached state; depends on histories.", "anchors": ["orthority/factory.py:FrameCameras.get"]}
{"id": "C27", "title": "Cameras handed out stay valid", "statement": "A camera returned by FrameCameras.get keeps the exterior parameters of its image after later get calls.", "quantifier": "all histories of get calls", "why_tests_cant": "Aliasing shows only for particular histories.", "anchors": ["orthority/factory.py:FrameCameras.get"]}
{"id": "C28", "title": "RpcCameras.get after refine returns the refined model", "statement": "After refine(), get() never returns a camera with the model from before the refinement, for any file that has GCPs.", "quantifier": "all parameter dictionaries, key styles and histories of get and refine calls", "why_tests_cant": "Cache staleness is history dependent.", "anchors": ["orthority/factory.py:RpcCameras.refine", "orthority/factory.py:RpcCameras.get"]}
{"id": "C29", "title": "RPC evaluation equals the RPC00B polynomial", "statement": "RpcCamera.world_to_pixel evaluates the standard 20 term RPC00B rational polynomial; NaN coordinates give NaN pixels and do not affect other points.", "quantifier": "all coefficients, offsets, scales and points", "why_tests_cant": "Polynomial identity over the reals.", "anchors": ["orthority/camera.py:RpcCamera.world_to_pixel"]}
{"id": "C30", "title": "RPC refinement transforms every projection by the fitted model", "statement": "With the refined RPC, every world point projects to the fitted shift (and drift) of its original projection, and all other RPC fields are unchanged.", "quantifier": "all RPC models with non-zero scales, GCP sets, methods and world points with non-zero denominator", "why_tests_cant": "For every world point, not just the GCPs.", "anchors": ["orthority/fit.py:refine_rpc"]}
{"id": "C31", "title": "RPC refinement is least squares optimal and idempotent", "statement": "After refinement the residuals at the GCPs have zero mean (and, for shift-drift, zero correlation with the projection), no other shift (or shift and drift) has a smaller sum of squares, and refining again with the same GCPs changes nothing.", "quantifier": "all RPC models and GCP sets meeting the minimum count", "why_tests_cant": "Optimality is against all competitors.", "anchors": ["orthority/fit.py:refine_rpc"]}
{"id": "C32", "title": "Pinhole projection and back projection are inverse", "statement": "world_to_pixel(pixel_to_world_z(ji, z)) = ji with the returned Z equal to z, and pixel_to_world_z(world_to_pixel(xyz), Z) = xyz, for a pinhole camera when the ray is not horizontal and the point is not in the camera plane.", "quantifier": "all interior and exterior parameters, pixels and elevations other than that of the camera", "why_tests_cant": "Continuum of poses.", "anchors": ["orthority/camera.py:FrameCamera.world_to_pixel", "orthority/camera.py:FrameCamera.pixel_to_world_z"]}
{"id": "C33", "title": "OPK angles give a proper rotation", "statement": "The rotation used by a frame camera is orthonormal with determinant one for all omega, phi, kappa.", "quantifier": "all real angles", "why_tests_cant": "Continuum of angles.", "anchors": ["orthority/param_io.py:_opk_to_rotation", "orthority/camera.py:FrameCamera._get_extrinsic"]}
{"id": "C34", "title": "OPK angles recover the rotation they were made from", "statement": "Converting a rotation matrix to OPK and back gives the same rotation.", "quantifier": "all rotation matrices", "why_tests_cant": "Fails only on a measure zero set that sampling does not hit.", "anchors": ["orthority/param_io.py:_rotation_to_opk", "orthority/param_io.py:_opk_to_rotation"]}
{"id": "C35", "title": "OpenSfM / OpenCV poses are converted without change of projection", "statement": "A camera made from an OpenCV style rotation and translation projects every world point to the camera coordinates R(X - ref) + t (up to the axis flip that the camera convention makes).", "quantifier": "all rotation vectors, translations, reference points and world points", "why_tests_cant": "Identity over SO(3) and R^3.", "anchors": ["orthority/param_io.py:_cv_ext_to_oty_ext", "orthority/param_io.py:_aa_to_opk"]}
{"id": "C36", "title": "Roll-pitch-yaw conversion gives a proper rotation", "statement": "Given a horizontal north vector, the OPK rotation computed from roll, pitch and yaw is orthonormal with determinant one and equals the composed body to world rotation.", "quantifier": "all angles and north directions", "why_tests_cant": "Continuum.", "anchors": ["orthority/param_io.py:_rpy_to_opk", "orthority/param_io.py:_rpy_to_rotation"]}
{"id": "C37", "title": "Focal length normalisation follows the documentation", "statement": "With sensor_size omitted, focal_len is taken as normalised by the larger of sensor width and height, as documented; with sensor_size given, scaling focal_len and sensor_size by the same factor changes nothing.", "quantifier": "all image sizes, focal lengths and sensor sizes", "why_tests_cant": "Portrait and landscape, all values.", "anchors": ["orthority/camera.py:FrameCamera._get_intrinsic"]}
{"id": "C38", "title": "Fitted intrinsics reproduce the calibration", "statement": "The interior parameters produced by the fit functions rebuild exactly the calibrated intrinsic matrix when a camera is made from them.", "quantifier": "all image sizes and calibration matrices", "why_tests_cant": "All values.", "anchors": ["orthority/fit.py:_fit_frame", "orthority/camera.py:FrameCamera._get_intrinsic"]}
{"id": "C39", "title": "Below horizon check covers the whole image", "statement": "If the check on the image boundary passes for a pinhole camera, the ray of every pixel in the image points down, and the point that pixel_to_world_z returns below the camera is in front of it.", "quantifier": "all camera poses and all pixels", "why_tests_cant": "Continuum of pixels from eight tested points.", "anchors": ["orthority/camera.py:FrameCamera._horizon_fov", "orthority/camera.py:FrameCamera.world_boundary"]}
{"id": "C40", "title": "World points behind the camera are not projected into the image", "statement": "world_to_pixel gives no pixel inside the image for a world point behind the camera.", "quantifier": "all poses and world points", "why_tests_cant": "Continuum.", "anchors": ["orthority/camera.py:FrameCamera.world_to_pixel"]}
{"id": "C41", "title": "Surface intersection returns the first hit on the pixel's ray", "statement": "The world boundary point for a surface lies on the ray of its pixel, is the first sample at or below the surface when there is one and the minimum elevation point otherwise, and samples are no farther apart than the DEM resolution unless the step cap applies.", "quantifier": "all surfaces, poses and pixels", "why_tests_cant": "All surfaces.", "anchors": ["orthority/camera.py:Camera._pixel_to_world_surf"]}
{"id": "C42", "title": "pixel_boundary lies on the image boundary", "statement": "All points of pixel_boundary lie on the border of the image, the default has the corners and mid points, and num_pts points are returned when asked.", "quantifier": "all image sizes and num_pts", "why_tests_cant": "All sizes and counts.", "anchors": ["orthority/camera.py:Camera.pixel_boundary"]}
{"id": "C43", "title": "Undistort maps match the current alpha", "statement": "After any history of alpha and distort changes and reads, the maps used to undistort an image are those of the current alpha, and equal those of a camera constructed with it.", "quantifier": "all histories", "why_tests_cant": "Cache coherence over histories.", "anchors": ["orthority/camera.py:FrameCamera.alpha", "orthority/camera.py:FrameCamera._undistort_im"]}
{"id": "C44", "title": "Alpha limits the undistorted view", "statement": "alpha is clipped to [0, 1]; with alpha=1 all tested source pixels lie inside the undistorted image and with alpha=0 the undistorted image lies inside the tested inner rectangle.", "quantifier": "all cameras and alphas, with a non-empty inner rectangle where alpha is 0", "why_tests_cant": "All distortion parameters.", "anchors": ["orthority/camera.py:FrameCamera._get_undistort_intrinsic"]}
{"id": "C45", "title": "Distortion models agree with their documentation", "statement": "BrownCamera equals the 5 parameter OpenCV model; OpenCVCamera's choice of coefficient count does not change the model; FisheyeCamera with two parameters equals four with zeros; zero Brown distortion equals the pinhole camera.", "quantifier": "all parameters and points", "why_tests_cant": "Polynomial identities.", "anchors": ["orthority/camera.py:BrownCamera._camera_to_pixel", "orthority/camera.py:OpenCVCamera", "orthority/camera.py:FisheyeCamera._camera_to_pixel"]}
{"id": "C46", "title": "Fisheye projection is defined on the optical axis", "statement": "FisheyeCamera.world_to_pixel gives the principal point for world points on the optical axis.", "quantifier": "all poses and parameters", "why_tests_cant": "Measure zero set.", "anchors": ["orthority/camera.py:FisheyeCamera._camera_to_pixel"]}
{"id": "C47", "title": "Streaming statistics equal batch statistics", "statement": "The means and covariances that PanSharpen computes tile by tile equal the batch mean and covariance of all valid pixels, for every tile completion order and tiling.", "quantifier": "all pixel data, masks, tilings and completion orders", "why_tests_cant": "Schedules and data unbounded.", "anchors": ["orthority/pan_sharp.py:PanSharpen._get_stats"]}
{"id": "C48", "title": "Gram-Schmidt transform is inverted exactly", "statement": "Reversing the Gram-Schmidt transform returns the MS image when the pan band is not replaced; with replacement, each band changes by its coefficient times the difference of normalised and simulated pan.", "quantifier": "all coefficients, weights, means and pixels", "why_tests_cant": "Algebraic identity by induction over bands.", "anchors": ["orthority/pan_sharp.py:PanSharpen._process_tile_array"]}
{"id": "C49", "title": "Gram-Schmidt components are uncorrelated", "statement": "With the coefficients computed from the covariance, the transformed components are pairwise uncorrelated.", "quantifier": "all positive semidefinite covariances and weights", "why_tests_cant": "Induction over bands for all covariances.", "anchors": ["orthority/pan_sharp.py:PanSharpen._get_params"]}
{"id": "C50", "title": "Pan normalisation preserves band statistics", "statement": "The normalised pan band has the mean and variance of the simulated pan, so sharpening preserves the mean of each MS band over the pixels the statistics come from.", "quantifier": "all images of two or more pixels, with linearly independent multispectral bands, and weights with non-zero pan variance", "why_tests_cant": "All data.", "anchors": ["orthority/pan_sharp.py:PanSharpen._get_params"]}
{"id": "C51", "title": "Pan weights are a convex combination", "statement": "The weights used are non-negative and sum to one, for user given and for estimated weights.", "quantifier": "all weights accepted and all least squares results", "why_tests_cant": "All inputs.", "anchors": ["orthority/pan_sharp.py:PanSharpen._get_params", "orthority/pan_sharp.py:PanSharpen._validate_pan_ms_params"]}
{"id": "C52", "title": "Pan-sharpened tile writes are schedule independent and complete", "statement": "For every completion order, each output pixel is written once, invalid pixels hold nodata and valid pixels hold the sharpened value converted to the output type.", "quantifier": "all schedules and images", "why_tests_cant": "Schedules.", "anchors": ["orthority/pan_sharp.py:PanSharpen._process_tile", "orthority/pan_sharp.py:PanSharpen.process"]}
{"id": "C53", "title": "Pan and MS grids stay registered", "statement": "The windows and transforms given to the VRTs cover the overlap of pan and MS on whole pixels, and for images without georeference the MS grid spans the same bounds as the pan grid.", "quantifier": "all transforms and sizes", "why_tests_cant": "Real-valued geometry.", "anchors": ["orthority/pan_sharp.py:PanSharpen._get_vrt_profiles"]}
{"id": "C54", "title": "DEM crop keeps georeferencing and all needed pixels", "statement": "Cropping the DEM to the ortho bounds and to the camera's footprint keeps each elevation at its world position, keeps every pixel in the footprint and sets pixels outside the footprint to NaN.", "quantifier": "all DEMs, bounds, footprints", "why_tests_cant": "All windows and masks.", "anchors": ["orthority/ortho.py:Ortho._get_init_dem", "orthority/ortho.py:Ortho._mask_dem"]}
{"id": "C55", "title": "Ground sampling distance is a geometric invariant", "statement": "The automatic resolution does not depend on the start point or direction of the boundary or on translation of the coordinate system, and scales with the units.", "quantifier": "all boundaries", "why_tests_cant": "All polygons.", "anchors": ["orthority/ortho.py:Ortho._get_gsd"]}
{"id": "C56", "title": "EXIF position decoding", "statement": "GPS degrees, minutes and seconds are decoded to the decimal position with the sign of the hemisphere, XMP values take precedence when complete, and altitude sign follows the reference.", "quantifier": "all tag values", "why_tests_cant": "All values and tag subsets.", "anchors": ["orthority/exif.py:Exif._get_lla", "orthority/exif.py:Exif._get_xmp_lla"]}
{"id": "C57", "title": "EXIF interior parameters decision", "statement": "Interior parameters derived from EXIF tags are consistent: with a sensor size, focal length and sensor size share units; otherwise the 35 mm equivalent is scaled so the camera sees the same field of view.", "quantifier": "all tag combinations", "why_tests_cant": "All subsets of tags.", "anchors": ["orthority/param_io.py:_read_exif_int_param", "orthority/exif.py:Exif._get_sensor_size"]}
{"id": "C58", "title": "Command line batch processing treats images independently", "statement": "In a batch, the CRS and output path of each image depend only on the options and that image, not on the images before it.", "quantifier": "all batches and orders", "why_tests_cant": "Loop carried state shows only for particular batches.", "anchors": ["orthority/cli.py:_ortho", "orthority/cli.py:_simple_ortho"]}
{"id": "C59", "title": "Command line option parsing", "statement": "Resolution, creation option and weight options are parsed to what was typed or rejected with a usage error.", "quantifier": "all option strings", "why_tests_cant": "Unbounded strings.", "anchors": ["orthority/cli.py:_resolution_cb", "orthority/cli.py:_creation_option_cb", "orthority/cli.py:_weights_cb"]}
{"id": "C60", "title": "World coordinates broadcast rules", "statement": "pixel_to_world_z returns one world point per pixel/elevation pair for every accepted combination of shapes and rejects the others with ValueError.", "quantifier": "all shapes of ji and z", "why_tests_cant": "All shapes.", "anchors": ["orthority/camera.py:Camera._validate_z", "orthority/camera.py:FrameCamera.pixel_to_world_z"]}
{"id": "C61", "title": "Undistorted images and the undistorted camera model agree with the distorted ones", "statement": "Distorting the pixel that a camera with distort=False gives for a world point gives the pixel that the same camera with distort=True gives; the world points of a pixel are those of its undistorted pixel; and the boundary of the valid area of an undistorted image lies in the image.", "quantifier": "all frame cameras, world points, pixels, elevations and alpha", "why_tests_cant": "Holds for all distortion models and poses.", "anchors": ["orthority/camera.py:FrameCamera._distort_pixel", "orthority/camera.py:FrameCamera._undistort_pixel", "orthority/camera.py:FrameCamera.pixel_boundary"]}
{"id": "C62", "title": "Sharpening is the identity when pan carries no new detail", "statement": "When the pan band is a non-negative combination of the multispectral bands plus a constant at every valid pixel, the estimated weights are the normalised weights of that combination and pan-sharpening returns the multispectral values unchanged.", "quantifier": "all images with independent bands, all non-negative combinations", "why_tests_cant": "Needs the whole chain of statistics, weight estimation, Gram-Schmidt transform, pan normalisation and inverse to be exact, for all images.", "anchors": ["orthority/pan_sharp.py:PanSharpen._get_params", "orthority/pan_sharp.py:PanSharpen._process_tile_array"]}
{"id": "C63", "title": "Resolution check of pan and multispectral images", "statement": "A pan and multispectral image pair is accepted exactly when their bounds overlap and pan pixels are no larger on the ground than multispectral pixels, whatever their CRSs, and otherwise construction raises OrthorityError.", "quantifier": "all pairs of images, resolutions and CRSs", "why_tests_cant": "Depends on every combination of resolutions and CRS units.", "anchors": ["orthority/pan_sharp.py:PanSharpen._get_vrt_profiles"]}
{"id": "C64", "title": "Repeated processing does not change the Ortho object", "statement": "process leaves the stored DEM unchanged, also when it fails, so each call in any sequence of calls uses the DEM it would use alone.", "quantifier": "all sequences of calls, options and failures", "why_tests_cant": "Sequences of calls are unbounded, and aliasing of arrays only shows for some option combinations.", "anchors": ["orthority/ortho.py:Ortho._reproject_dem", "orthority/ortho.py:Ortho._mask_dem", "orthority/ortho.py:Ortho.process"]}
{"id": "C65", "title": "EXIF images are linked to their own interior parameters", "statement": "When parameters are read from the tags of several images, every image has exterior parameters whose camera ID names interior parameters read from that image, and its position is the transformed (longitude, latitude, altitude) of its tags.", "quantifier": "all lists of images and tags", "why_tests_cant": "Depends on collisions between the camera IDs of any number of images.", "anchors": ["orthority/param_io.py:ExifReader.read_int_param", "orthority/param_io.py:ExifReader.read_ext_param", "orthority/param_io.py:_create_exif_cam_id"]}
{"id": "C66", "title": "Automatic UTM CRS contains the images", "statement": "Without a user CRS, the world CRS is the UTM zone and hemisphere that contain the mean camera position, so images that lie in one zone get that zone.", "quantifier": "all positions, including those next to zone borders, the equator and the 180 degree meridian", "why_tests_cant": "Zone borders and wrapping make infinitely many special positions.", "anchors": ["orthority/common.py:utm_crs_from_latlon", "orthority/param_io.py:ExifReader._find_utm_crs"]}
{"id": "C67", "title": "Interior parameter files are read as they say", "statement": "read_oty_int_param gives every camera of a file the type, image size, focal length, sensor size, offsets and distortion coefficients that the file says, in each of the nested, flat and old formats; a file with a parameter that its camera type does not document, or without a required parameter, is refused with ParamError.", "quantifier": "all interior parameter files, camera types and subsets of parameters", "why_tests_cant": "The combinations of camera type, optional parameters and file formats are unbounded.", "anchors": ["orthority/param_io.py:read_oty_int_param", "orthority/param_io.py:_read_oty_int_param"]}
{"id": "C68", "title": "Saved factories come back", "statement": "After write_param of a frame or RPC camera factory succeeds, the files in the directory give back the same cameras, images, parameters, CRS and GCPs, whatever was in the directory before, and still do after any later calls that do not overwrite.", "quantifier": "all factories, directories, values of overwrite and later histories of calls", "why_tests_cant": "Factories, earlier contents and later histories are unbounded.", "anchors": ["orthority/factory.py:FrameCameras.write_param", "orthority/factory.py:RpcCameras.write_param", "orthority/param_io.py:write_int_param", "orthority/param_io.py:OtyReader"]}
{"id": "C69", "title": "A factory has the parameters that its arguments name", "statement": "FrameCameras takes interior and exterior parameters from dictionaries as they are, and from files by the reader for their file ending in any case; one OpenSfM file can be both; the CRS is that of the exterior file, else the crs argument. Other file endings are refused with ParamError.", "quantifier": "all argument combinations, file names and file contents", "why_tests_cant": "File names, contents and combinations of argument types are unbounded.", "anchors": ["orthority/factory.py:FrameCameras._read_param"]}
{"id": "C70", "title": "Making a factory from images leaves the arguments alone", "statement": "FrameCameras.from_images gives a factory with the parameters and CRS of its images, and does not change its arguments, so that calls with the same keyword arguments are independent.", "quantifier": "all image lists and keyword arguments, and histories of calls that share keyword arguments", "why_tests_cant": "The effect shows only over histories of calls that share a dictionary.", "anchors": ["orthority/factory.py:FrameCameras.from_images"]}
{"id": "C71", "title": "Camera orientation from XMP tags", "statement": "Exterior parameters read from image tags have the orientation that the XMP angles describe: gimbal angles are used before camera angles; the camera looks to the azimuth of the gimbal yaw, clockwise from the north, and at the elevation of the gimbal pitch (straight down at -90, to the horizon at 0), with the top of the image 90 degrees above that direction; gimbal roll turns the image about that direction; and images without a complete set of angles raise ParamError.", "quantifier": "all tag dictionaries, all angles, and all horizontal directions of north on the map", "why_tests_cant": "Tests use a few drone images; the sign and order of three rotations can agree on near-nadir images and disagree for other angles.", "anchors": ["orthority/exif.py:342-351", "orthority/param_io.py:190-230", "orthority/param_io.py:703-790"]}
{"id": "C72", "title": "Invalid data ends commands with usage errors", "statement": "When camera parameters, CRSs, images or the DEM given to an `oty` command are invalid or missing, the command ends with a usage error that names the option, without a traceback, and before it writes an ortho for the image concerned; a DEM is asked for exactly when parameters are not exported; and the orthos are in --crs, or else in the CRS of the camera parameters (frame, exif), of the DSM (odm) or WGS84 (rpc).", "quantifier": "all commands, options, camera factories, images, and exceptions raised by the library", "why_tests_cant": "Tests invoke commands with a few invalid inputs; they cannot cover every exception that can be raised at each step of a batch.", "anchors": ["orthority/cli.py:294-372", "orthority/cli.py:674-693", "orthority/cli.py:757-773", "orthority/cli.py:840-890", "orthority/cli.py:979-1021", "orthority/cli.py:1174-1211", "orthority/errors.py:15-33"]}
{"id": "C73", "title": "Pixel to world inverts world to pixel for RPC and GCP cameras", "statement": "For RPC and GCP cameras, world_to_pixel of what pixel_to_world_z returns gives the pixels back, in any camera CRS; the points are at the heights asked for; z can be a number, one height for each pixel, or several heights for one pixel; a NaN coordinate or height gives a NaN point and does not change others; and a CRS that changes heights is refused.", "quantifier": "all RPC models and GCP transforms that GDAL inverts, all CRSs with inverse transforms, all pixel lists and heights", "why_tests_cant": "Tests invert a few models at a few pixels and heights; shape combinations, NaN positions and CRS height behaviour are unbounded.", "anchors": ["orthority/camera.py:78-85", "orthority/camera.py:441-448", "orthority/camera.py:450-511", "orthority/camera.py:513-556"]}
{"id": "C74", "title": "RPCs and GCPs are read from image tags as they are", "statement": "read_im_rpc_param returns for each file its RPC and its (width, height); read_im_gcps returns for each file its GCPs in the order of the tags, with (column, row) as pixel coordinates, world coordinates in EPSG:4979 and their id and info; in the order of the files whatever thread finishes first; a file without tags raises ParamError; and nothing is returned that no file says.", "quantifier": "all lists of files, tag contents and thread schedules", "why_tests_cant": "Tests read a few images with valid tags; they see one schedule, one CRS and a few GCPs.", "anchors": ["orthority/param_io.py:332-394", "orthority/param_io.py:451-519"]}
{"id": "C75", "title": "Fitted exterior parameters put GCPs on their pixels", "statement": "fit_frame_exterior returns one set of exterior parameters per image, in the order of the GCP dictionary, for the first camera; the camera made with them projects every world point to where OpenCV's fitted pose does, so GCPs that are consistent with a pose are projected onto their pixels, whatever the CRS and offset of the GCPs and the camera type; and images with fewer than three GCPs raise ValueError.", "quantifier": "all interior parameters, camera types, GCP dictionaries, CRS transforms and solver results", "why_tests_cant": "Tests fit a few simulated poses of one camera; conventions of rotation, offset, distortion order and camera type combine in unbounded ways.", "anchors": ["orthority/fit.py:133-155", "orthority/fit.py:299-360", "orthority/param_io.py:838-856"]}
{"id": "C76", "title": "Fitted interior and exterior parameters reproduce the calibrated model", "statement": "_fit_frame returns interior and exterior parameters of a camera that projects every world point to where OpenCV's calibrated model does, for each camera type; it needs four GCPs per image and 4, 6 or 11 in total, at one height; and the intrinsic matrix is fixed exactly when there are too few GCPs to fit it.", "quantifier": "all camera types, image sizes, GCP dictionaries, CRS transforms and calibration results", "why_tests_cant": "Tests calibrate a few simulated cameras with the same GCP count in each image.", "anchors": ["orthority/fit.py:41-46", "orthority/fit.py:133-155", "orthority/fit.py:158-296"]}
{"id": "C77", "title": "Path and CRS options mean the file or CRS that they name", "statement": "--crs and --lla-crs give the CRS of the image, text file or string that the value names, and every other value is a usage error; file, directory and source options open the path that they name in the mode of the option; the default output directory of oty odm is made in the dataset directory only when the option is not given; --gcp-refine tells the word tags from file names in any case.", "quantifier": "all option values, file systems and outcomes of library calls", "why_tests_cant": "Tests pass a few valid and invalid strings on one file system.", "anchors": ["orthority/cli.py:158-237", "orthority/cli.py:259-282"]}
{"id": "C78", "title": "World CRSs are what was asked for and are projected", "statement": "A CRS that is given to a reader or Ortho is the one used, whatever the files say, and the source image of an Ortho is opened for its CRS only when none is given; a CRS that a reader cannot use raises CrsError; the world CRS of every reader is projected and its geographic CRS geographic; and a source image without a CRS raises CrsMissingError.", "quantifier": "all CRS arguments (none, string or object), CRS libraries, file contents and source images", "why_tests_cant": "Tests use a few EPSG codes; the rule has to hold for every CRS and each combination of argument, file and image.", "anchors": ["orthority/param_io.py:873-893", "orthority/param_io.py:971-996", "orthority/param_io.py:1190-1201", "orthority/param_io.py:1295-1301", "orthority/param_io.py:1376-1413", "orthority/ortho.py:85-125"]}
{"id": "C79", "title": "The legacy command makes each ortho with the pose of its image", "statement": "simple-ortho makes the ortho of every image that its arguments match with the camera of the configuration at the position and orientation in the last row with the name of the image, whatever the other images; it replaces existing files only with overwrite, changes no other file, stops at the first image without a row, and with --write-conf does nothing but write the configuration; the ortho section of the configuration becomes the keyword arguments of Ortho.process, without deprecated keys.", "quantifier": "all configurations, position files, source arguments, file systems and outcomes of processing", "why_tests_cant": "Tests run one configuration on a few images; one camera object is updated from image to image.", "anchors": ["orthority/cli.py:1214-1371"]}
{"id": "C80", "title": "World boundaries are where the image boundary meets the ground", "statement": "FrameCamera.world_boundary gives one world point for each pixel of pixel_boundary: at the elevation given, or where the ray of the pixel meets the surface to within a surface pixel; in front of the camera and seen at that pixel; never above the camera unless clip is off. A field of view that reaches the horizon raises OrthorityError, a camera without exterior parameters CameraInitError, a surface above the camera ValueError.", "quantifier": "all cameras with an exact inverse, elevations, surfaces, numbers of points and clip settings", "why_tests_cant": "Tests compare a few cameras and surfaces; the claim is about all poses, elevations and surfaces.", "anchors": ["orthority/camera.py:960-1018", "orthority/camera.py:103-165"]}
{"id": "C81", "title": "Cameras project as their parameter files say", "statement": "A frame camera made by create_camera from the interior parameters that the Orthority and OpenSfM readers give has the image size of the file, and its world_to_pixel is the documented projection for its type, with each focal length, principal point and distortion coefficient applied by its name and zero where not given. A parameter that the type does not have, or that is also a camera option, is a TypeError, and an unknown type a ValueError.", "quantifier": "all interior parameter files, camera types, camera options, exterior parameters and world points not level with the camera", "why_tests_cant": "Tests make a camera for each type with one set of parameters; coefficients pass by name and by position through readers, keyword arguments and OpenCV order, and each combination of given and missing ones is another case.", "anchors": ["orthority/camera.py:594-700", "orthority/camera.py:1185-1260", "orthority/camera.py:1320-1365", "orthority/camera.py:1417-1514", "orthority/param_io.py:124-260", "orthority/factory.py:225-232"]}
{"id": "C82", "title": "An ortho image is the source image on the ground", "statement": "When Ortho.process returns, the file at its path has the camera's CRS, the number of bands, data type, driver and overviews asked for, and the ortho resolution; it covers the part of the DEM that the camera sees and no more; each pixel of each band is the source image where the camera sees the centre of the pixel at its elevation, and nodata where the camera does not see it (for undistorted images, nodata also within a kernel of at least 3 pixels of such places); the mask, if asked for, is valid where there are data. No other file changes. When the source, the DEM, or the arguments do not allow an ortho, an error is raised and no file changes. With all that is needed, process completes whatever the order of its threads.", "quantifier": "all cameras, source images, DEMs, resolutions, data types, options, file systems and thread interleavings", "why_tests_cant": "Tests run process for some cameras and check statistics of the images; the claim is about each pixel for all inputs, and goes through reprojection, masking, the profile, tiling and threads together.", "anchors": ["orthority/ortho.py:484-631", "orthority/ortho.py:234-482", "orthority/common.py:416-556"]}
{"id": "C83", "title": "A pan-sharpened image has the detail of pan and the colours of the MS image", "statement": "When PanSharpen.process returns, the file at its path is on the grid of the pan image where the MS image overlaps it, with one band, coloured as in the MS image, for each MS band used, and the data type, driver and overviews asked for. Each pixel with pan and MS data is the component substitution formula of its pan value and interpolated MS values, with weights, gain and bias from all pixels of the MS grid with data; other pixels are nodata. When pan is a non-negative combination of the MS bands, the output is the interpolated MS image. The result does not depend on the order of threads. No other file changes, and nothing changes when images, bands, weights or options are not valid.", "quantifier": "all pan and MS images, bands, weights, data types, options, file systems and thread interleavings", "why_tests_cant": "Tests compare statistics of the output for two images; the claim is about each pixel for all inputs and goes through streaming statistics, least squares, the Gram-Schmidt transform, windows, the profile, tiling and threads together.", "anchors": ["orthority/pan_sharp.py:71-176", "orthority/pan_sharp.py:228-516", "orthority/pan_sharp.py:517-670"]}
{"id": "C84", "title": "Undistorted images show what the camera sees", "statement": "FrameCamera.read returns the bands asked for as they are in the file when the camera has distortion or is a pinhole camera. With distort=False, each pixel of the returned image shows the source image where the camera model puts a world point that the undistorted camera model puts on the pixel, for the last alpha that was set, and nodata where that is outside the source image. The nodata value has a default, images of a size other than the camera's are not returned as if they held no data, and unsupported data types and sizes are refused.", "quantifier": "all frame camera types and parameters, image files, arguments, world points, and histories of alpha, distort and read calls", "why_tests_cant": "Tests compare a few undistorted images with OpenCV or with re-distorted ones within a tolerance; the claim relates the maps that OpenCV makes to orthority's own projection code for every camera type, coefficient and pixel.", "anchors": ["orthority/camera.py:87-101", "orthority/camera.py:287-317", "orthority/camera.py:736-781", "orthority/camera.py:908-938", "orthority/camera.py:1019-1057", "orthority/camera.py:1232-1255", "orthority/camera.py:1448-1455"]}
{"id": "C85", "title": "Output that is not finished is not wrong", "statement": "Ortho.process and PanSharpen.process return only when every tile of every band was written: an exception in a worker thread or in reading a band is never lost. At every moment while they run, and after any workers raised, each pixel of each band of the output is as it was in the new file, or as it is in the output of a run that completes; where it has an internal mask, a pixel is marked valid only when all its bands are written. No other file is changed, and profile, CRS, transform and colours are those of the finished image.", "quantifier": "all interleavings of worker threads, all sets of workers that raise and points at which they raise (with any part of their tile written), failed reads, moments, images, cameras, block shapes and ways of processing", "why_tests_cant": "A test can make one worker raise at one point of one schedule; which tiles are written by then, and in what part, depends on timing and on GDAL, and moments at which a process is ended cannot be enumerated.", "anchors": ["orthority/ortho.py:345-399", "orthority/ortho.py:401-482", "orthority/ortho.py:604-631", "orthority/pan_sharp.py:491-516", "orthority/pan_sharp.py:621-670"]}
{"id": "C86", "title": "OpenSfM files are read if they are right, else ParamError", "statement": "read_osfm_int_param and OsfmReader return parameters exactly for files that have the form of the documentation: for each camera a known projection type, width, height, 'focal' or both 'focal_x' and 'focal_y', and only parameters of its camera type; for each shot its rotation, translation and camera. For any other decodable JSON they raise ParamError, and no other exception escapes.", "quantifier": "all decodable JSON values, whatever their nesting and types", "why_tests_cant": "Malformed files are unbounded in number; tests contain a few of them, each with one fault.", "anchors": ["orthority/param_io.py:71-129", "orthority/param_io.py:286-314", "orthority/param_io.py:1187-1264", "orthority/enums.py:72-79", "orthority/common.py:164-220"]}
{"id": "C87", "title": "A command writes the ortho of each source image, as its camera sees the ground", "statement": "When oty frame, odm, exif or rpc ends without an exception, the output directory has, for each source image, <stem>_ORTHO.tif: in the CRS of the command or of the first image, covering the footprint of the image's camera on the DEM and no more, where each pixel is the source image at the pixel at which the documented camera (interior parameters of its camera, exterior parameters of the image; or its RPC, refined with its GCPs if asked) sees the pixel's centre at its elevation, and nodata elsewhere. With --no-full-remap, the source image is replaced by an undistorted image, seen with the pinhole model, whose pixels are the source image where the documented camera sees the same points; nodata may then be dilated. This does not depend on the other images of the command, although they share cameras. No other file is changed. When it ends with an exception, the images before that for which it was raised have their orthos, and only that image's ortho may be in another state.", "quantifier": "all lists of source images with different names, parameter files, camera types, DEMs, options, orders, states of the file system, and GDAL errors", "why_tests_cant": "Tests run the commands on a few images and check that files exist, or compare orthos to each other; they cannot check each pixel against the camera model for all parameters and orders of images.", "anchors": ["orthority/cli.py:294-372", "orthority/cli.py:486-510", "orthority/cli.py:668-697", "orthority/cli.py:745-781", "orthority/cli.py:852-888", "orthority/cli.py:975-1021", "orthority/factory.py:205-234", "orthority/factory.py:339-385", "orthority/ortho.py:633-842"]}
{"id": "C88", "title": "Files that are opened are closed, and not used after", "statement": "When a call of camera.read, Ortho, PanSharpen, their process methods, a parameter reader or writer, or an oty command ends, with or without an exception, every dataset and file that it opened is closed; datasets and file objects of the caller stay open. No thread uses a dataset before it is opened or after it is closed: in particular all tiles are written before the ortho is closed. When process returns, the ortho is closed, so its data is on disk.", "quantifier": "all ways of giving files (paths, remote files, open datasets), all numbers of images and tiles, all exceptions at any point, all interleavings of the threads", "why_tests_cant": "A leaked handle or a write after close shows only in rare interleavings or after particular exceptions; tests do not look at open handles.", "anchors": ["orthority/common.py:249-413", "orthority/ortho.py:112-165", "orthority/ortho.py:434-482", "orthority/ortho.py:558-631", "orthority/pan_sharp.py:82-178", "orthority/pan_sharp.py:273-309", "orthority/pan_sharp.py:595-670", "orthority/param_io.py:349-390", "orthority/param_io.py:467-515", "orthority/param_io.py:1304-1330", "orthority/cli.py:325-372", "orthority/cli.py:1174-1214"]}
{"id": "C89", "title": "A dataset is used by one thread at a time", "statement": "While Ortho.process and PanSharpen.process run, no two threads read from, or write to, one dataset at the same time, which GDAL does not allow; and a tile's data and mask are written with no other tile's write between. The readers of many images use each dataset from one thread.", "quantifier": "all interleavings of the worker threads and the calling thread, all numbers of tiles, bands and images, exceptions at any point, all moments", "why_tests_cant": "Data races show in few interleavings, which a test cannot choose, and may show only as a wrong pixel.", "anchors": ["orthority/ortho.py:345-482", "orthority/pan_sharp.py:241-309", "orthority/pan_sharp.py:478-515", "orthority/pan_sharp.py:595-670", "orthority/param_io.py:349-390"]}
{"id": "C90", "title": "Rounding moves pixels by less than interpolation does", "statement": "The place of the source image that an ortho pixel is read from, as computed in float64 and converted to float32, differs from the exact place by less than a bound that grows with the size of the world coordinates, the focal length in pixels, the size of the image and the obliqueness of the view; it is below 1/256 pixel for coordinates as of a UTM zone, images of up to 32768 pixels a side, focal lengths of up to 131072 pixels, up to 1024 source pixels per world unit and points whose depth is at least a quarter of their distances along the axes. For cameras without distortion and north-up orthos.", "quantifier": "all roundings within half a unit in the last place (any rule for ties), all orders of summation, products fused or not, all cameras, grids and pixels within the given sizes", "why_tests_cant": "Tests compare with tolerances at a few points on one machine; the order of operations of BLAS and the error of other scales are not tested.", "anchors": ["orthority/camera.py:789-792", "orthority/camera.py:831-840", "orthority/camera.py:366-374", "orthority/ortho.py:362-369", "orthority/ortho.py:421-426"]}
{"id": "C91", "title": "Tile workers do not wait for each other for ever", "statement": "Every execution of the threads of Ortho.process and PanSharpen.process, and of the readers of many images, ends: no thread waits for a lock whose holder waits too, or has ended without giving it back, also when threads raise exceptions.", "quantifier": "all interleavings of the threads, all numbers of tiles, bands and images, exceptions at any point, all moments", "why_tests_cant": "A deadlock shows in few interleavings, and only for some exceptions; a test that does not hang says nothing of the others.", "anchors": ["orthority/ortho.py:345-482", "orthority/pan_sharp.py:241-309", "orthority/pan_sharp.py:478-515", "orthority/pan_sharp.py:595-670", "orthority/param_io.py:349-390"]}
{"id": "C92", "title": "Calls do not change the arguments of the caller or shared arrays", "statement": "However a call ends, the arrays, dictionaries and lists that the caller passed (and those in them) are as before: transforms of coordinates, remap, read, fits, refinement, parameter writers, factories and Ortho.process change only objects that they made, the camera or factory they are called on, and files. Arrays and dictionaries that they return are new, so that changing one does not change an argument. Tasks of worker threads do not change the arrays that they share, and Ortho.process does not change the DEM that it keeps for the next call.", "quantifier": "all executions, all points of failure, all contents and aliasing of the objects", "why_tests_cant": "A test compares some arguments before and after some calls; that no path through the code writes to memory of the caller through an alias or view needs all paths.", "anchors": ["orthority/camera.py:RpcCamera.world_to_pixel", "orthority/camera.py:BrownCamera._camera_to_pixel", "orthority/camera.py:Camera.remap", "orthority/ortho.py:Ortho._reproject_dem", "orthority/ortho.py:Ortho._mask_dem", "orthority/fit.py:refine_rpc", "orthority/factory.py:RpcCameras.refine", "orthority/factory.py:FrameCameras.from_images"]}
{"id": "C93", "title": "oty sharpen writes the image that its options ask for, or says why not", "statement": "When `oty sharpen` ends without an exception, the file at --out-file is the pan-sharpened image of its options: in the CRS of the pan image, on whole pan pixels that have the overlap of the two images, with a band for each --ms-index in the order given (or all non-alpha bands), in the --dtype, sharpened with the --weight values or least squares weights, and no other file is changed. When its options or images cannot be used (an existing output without --overwrite, missing images or bands, weights that are negative or too few, images that do not overlap, JPEG for a type it cannot hold) it ends with a usage error and changes no file. With usable options and images it completes.", "quantifier": "all images, options, file systems, orders of tile threads and exceptions of GDAL", "why_tests_cant": "Tests run the command on a few small image pairs; the claim is about every combination of options, every pair of images and every way a run can stop.", "anchors": ["orthority/cli.py:sharpen", "orthority/cli.py:_weights_cb", "orthority/pan_sharp.py:PanSharpen.__init__", "orthority/pan_sharp.py:PanSharpen.process"]}
{"id": "C94", "title": "Cameras that share parameters are read as if written out", "statement": "An interior parameter file in which cameras share their parameters through YAML anchors and aliases is read like the file with every camera written out: reading one camera does not change what another camera is read as.", "quantifier": "all nested interior parameter files, with any sharing between cameras", "why_tests_cant": "Tests read files without aliases; the claim is about every pattern of sharing, and rests on the order in which items are taken out of shared dictionaries.", "anchors": ["orthority/param_io.py:read_oty_int_param"]}
{"id": "C95", "title": "A file has the same name however it is passed", "statement": "A file is known by the last part of its path or URI, whether it is passed as a string, a path, an OpenFile, a dataset or a file object, opened by the user or by the library. So the parameters of an image are found under its name (or name without extension) whichever way the image is passed.", "quantifier": "all paths and URIs, all ways to pass a file, all histories of calls of FrameCameras.get", "why_tests_cant": "Tests pass a few files in a few ways; names come from strings, attributes and libraries in endless combinations.", "anchors": ["orthority/common.py:get_filename", "orthority/common.py:OpenRaster.__init__", "orthority/common.py:Open.__init__", "orthority/factory.py:FrameCameras.get"]}
{"id": "C96", "title": "Commands keep the files that they read", "statement": "No command changes the source images, DEM or parameter files that it reads, wherever it stops, with or without --overwrite.", "quantifier": "all paths of sources, DEMs, parameter files and outputs, all points at which a command stops", "why_tests_cant": "Tests write to fresh directories; the claim is about every way in which the names of outputs and inputs can meet.", "anchors": ["orthority/cli.py:_ortho", "orthority/cli.py:sharpen", "orthority/factory.py:FrameCameras.write_param", "orthority/factory.py:RpcCameras.write_param", "orthority/common.py:join_ofile"]}
{"id": "C97", "title": "Reading tags leaves the warning filters alone", "statement": "Reading RPC, GCP or EXIF tags of images shows no NotGeoreferencedWarning, and leaves the warning filters of the process as they were: afterwards every warning is treated as it was before.", "quantifier": "all numbers of files and threads, all interleavings of the threads, all filters", "why_tests_cant": "The filters are a global that every thread of the pool saves, changes and restores; tests see one schedule.", "anchors": ["orthority/common.py:suppress_no_georef", "orthority/param_io.py:read_im_rpc_param", "orthority/param_io.py:read_im_gcps", "orthority/param_io.py:ExifReader._read_exif", "orthority/exif.py:Exif.__init__"]}
{"id": "C98", "title": "The .prj file of a CSV file", "statement": "Without a user CRS, a CSV file of x, y, z positions has the CRS in the .prj file with the same path but a .prj extension, if there is such a file, and no other .prj file is used.", "quantifier": "all paths of CSV files, all .prj files on the disk", "why_tests_cant": "Tests use one path with an extension; the claim is about every path.", "anchors": ["orthority/param_io.py:CsvReader._get_crs", "docs/file_formats/csv.rst"]}
{"id": "C99", "title": "Whole numbers are numbers", "statement": "Coordinates that are whole numbers have the same effect whether they are given as integers or as floats: in the GCPs that an RPC model is refined with, in its pixel offsets, and in world coordinates passed to an RPC camera.", "quantifier": "all RPC models, refinement methods, GCPs and world coordinates, with any of the numbers as integers", "why_tests_cant": "Tests use floats; whether an array has integers depends on all its numbers together.", "anchors": ["orthority/fit.py:refine_rpc", "orthority/camera.py:RpcCamera.world_to_pixel", "orthority/param_io.py:read_oty_gcps", "orthority/param_io.py:read_oty_rpc_param"]}
{"id": "C100", "title": "GCP cameras from dictionaries", "statement": "A GcpCamera can be made from GroundControlPoint objects or dictionaries, in any mixture, and uses these GCPs.", "quantifier": "all sequences of GCPs as objects and dictionaries", "why_tests_cant": "The class has no tests; the claim is about every dictionary.", "anchors": ["orthority/camera.py:GcpCamera.__init__"]}
{"id": "C101", "title": "The camera of an image has the pose in its row of the CSV file", "statement": "When the exterior parameters are read from a CSV file whose rows have different file names, the camera that FrameCameras.get returns for an image has the position and orientation of the numbers in the row of that image, in the units and format of the file, and the interior parameters of the camera that the row names, whatever calls came before; an image without a row is refused with ParamError.", "quantifier": "all CSV files of every format, all images, all earlier calls", "why_tests_cant": "Reader and factory are tested apart, on some files; the claim joins a row of any file to the camera after any history of calls.", "anchors": ["orthority/param_io.py:CsvReader.read_ext_param", "orthority/param_io.py:CsvReader._convert", "orthority/factory.py:FrameCameras.get"]}
{"id": "C102", "title": "Commands can be run again, in parts and side by side", "statement": "A command that was stopped or failed, any number of times, and is then run to its end with --overwrite, leaves the files that one run would have left; running it again changes nothing; without --overwrite it is refused when an output exists and keeps it; the sources can be given in parts; commands that do not touch each other's files can run at the same time.", "quantifier": "all commands, all points at which runs stop, all contents of files, all interleavings of two commands", "why_tests_cant": "Tests run a command to its end once, on a clean directory.", "anchors": ["orthority/cli.py:_ortho", "orthority/cli.py:sharpen", "orthority/common.py:OpenRaster", "orthority/factory.py:FrameCameras.write_param", "orthority/factory.py:RpcCameras.write_param"]}
{"id": "C103", "title": "GCPs keep their accuracy in float32", "statement": "The conversion of GCPs to float32 for OpenCV moves their world positions by no more than one part in 2^23 of the spread of the GCPs and a negligible term for the rounding of their mean, however large the coordinates are (at most 1.2 mm for GCPs within 10 km of each other), and their pixel positions by no more than 1/256 pixel in images of up to 65536 pixels a side.", "quantifier": "all GCPs, all orders in which the mean is summed, all rounding that is to nearest", "why_tests_cant": "Tests use some GCPs near one place and tolerances; the bound is for all coordinates and roundings.", "anchors": ["orthority/fit.py:_gcps_to_cv_coords"]}
{"id": "C104", "title": "Fitted parameters make the fitted cameras", "statement": "A camera that is created from fitted interior parameters projects, with the fitted exterior parameters of an image, each world point to where the calibrated OpenCV model does; a camera that is created from documented interior parameters (in which sensor size, principal point and coefficients may be left out) projects, with exterior parameters that were fitted with them, each GCP to its pixel when OpenCV finds an exact pose.", "quantifier": "all camera types, interior parameters, camera options, GCPs, images and world points", "why_tests_cant": "Tests compare a few fitted cameras; it depends on fit and camera constructors reading each optional parameter in the same way, for all parameters.", "anchors": ["orthority/fit.py:_fit_frame", "orthority/fit.py:fit_frame_exterior", "orthority/camera.py:create_camera", "orthority/camera.py:FrameCamera._get_intrinsic"]}
{"id": "C105", "title": "Cameras of OpenSfM reconstructions see points where OpenSfM does", "statement": "FrameCameras of a reconstruction.json file gives, for an image that is a shot of the file, a camera that projects each world point to the pixel where OpenSfM's camera model projects it with the shot's rotation, translation and camera, when world coordinates are offset by the reference point of the file in the world CRS; whatever cameras were asked for before.", "quantifier": "all reconstruction files, shots, supported camera models, image formats, camera options, histories of get() calls and world points", "why_tests_cant": "Tests compare positions of a few shots of one landscape dataset; the claim goes through file reading, pose conversion, camera construction, the camera cache and projection, and is about a model that is not orthority's.", "anchors": ["orthority/param_io.py:OsfmReader.read_ext_param", "orthority/param_io.py:_read_osfm_int_param", "orthority/param_io.py:_cv_ext_to_oty_ext", "orthority/factory.py:FrameCameras.get", "orthority/camera.py:FrameCamera._get_intrinsic", "orthority/camera.py:FrameCamera.world_to_pixel"]}
{"id": "C106", "title": "The DEM crop keeps all ground that the camera sees", "statement": "Ortho() crops the DEM that it reads to a window that holds every valid DEM pixel whose ground, at that pixel's elevation, projects into the source image: orthorectified pixels are not lost because the DEM under them was cropped away.", "quantifier": "all frame cameras (any position, orientation and distortion), RPC models and GCP transforms, DEMs (any extent, resolution, relief, CRS and vertical datum) and DEM pixels", "why_tests_cant": "Tests compare the crop with the bounds of an ortho for a few near-nadir cameras over one DEM; whether bounds from eight image points at two elevations hold all seen ground is a geometric fact about all poses and all surfaces.", "anchors": ["orthority/ortho.py:Ortho._get_init_dem", "orthority/camera.py:FrameCamera.world_boundary", "orthority/camera.py:FrameCamera.pixel_boundary"]}
{"id": "C107", "title": "The polygon of world_boundary() is the ground that the camera sees", "statement": "On ground below the camera, the polygon through the points of world_boundary() is exactly the ground that projects into the image: nothing that is seen lies outside it (and would be masked from the ortho), and nothing inside it is unseen.", "quantifier": "all frame cameras that do not see the horizon (any position, orientation, interior and distortion), GCP and RPC cameras, elevations or DEMs, image sizes and numbers of boundary points", "why_tests_cant": "Tests compare boundaries with bounds of a few near-nadir cameras; that the projection of the image rectangle is the polygon of finitely many of its points is a statement on all points of the ground.", "anchors": ["orthority/camera.py:Camera.world_boundary", "orthority/camera.py:Camera.pixel_boundary", "orthority/ortho.py:Ortho._mask_dem"]}
{"id": "C108", "title": "world_boundary() of RPC and GCP cameras is ground seen at the image boundary", "statement": "world_boundary() of an RPC or GCP camera gives one world point for each pixel of the image boundary: at the given elevation, or between the extremes of the given surface; world_to_pixel() of the points is the image boundary; and on a surface each point is no farther than a pixel of the surface from where the ground of its image pixel meets the surface. Arguments that cannot be used raise ValueError.", "quantifier": "all RPC models (with GDAL's inverse right at the boundary), GCP cameras, CRSs that keep heights, image sizes, numbers of points, elevations and surfaces", "why_tests_cant": "Tests compare boundaries of one RPC model with a tolerance; the ground of an RPC pixel moves along a curve with the elevation, and whether sampling it finds the surface depends on all models and surfaces.", "anchors": ["orthority/camera.py:Camera.world_boundary", "orthority/camera.py:Camera._pixel_to_world_surf", "orthority/camera.py:RpcCamera.pixel_to_world_z", "orthority/camera.py:GcpCamera.pixel_to_world_z"]}
{"id": "C109", "title": "Messages and warnings of commands are shown once, as -v and -q ask", "statement": "While a command runs, each warning and log message of orthority that reaches Python's display is written to stderr exactly once, with its level and the name of its module, if its level is at least that which the counts of -v and -q ask for, and else not at all; warnings of other packages are shown as Python shows them. This holds for any commands run earlier in the process.", "quantifier": "all counts of -v and -q, messages, levels, modules and warnings, and all sequences of commands in one process", "why_tests_cant": "Handlers, levels and the warnings hook are process globals that each command changes and never restores; a test sees one command with a few messages, in a process whose streams the test runner has replaced.", "anchors": ["orthority/cli.py:_configure_logging", "orthority/cli.py:cli"]}
{"id": "C110", "title": "Orthos made with one DEM and resolution share a pixel grid", "statement": "Orthos of different images that are made with the same DEM file and the same resolution lie on one pixel grid: pixel corners of one are pixel corners of the other, so that the orthos can be mosaicked without resampling. Where pixels of two orthos are at the same place, both show the same point of the ground, at the same elevation.", "quantifier": "all pairs of cameras, DEMs, resolutions, source images and interpolation types", "why_tests_cant": "Each image crops and reprojects the DEM for itself; a test compares the ortho of one image with its camera, not the grids of all pairs of orthos.", "anchors": ["orthority/ortho.py:Ortho._get_init_dem", "orthority/ortho.py:Ortho._reproject_dem", "orthority/ortho.py:Ortho._mask_dem", "orthority/ortho.py:Ortho.process"]}
{"id": "C111", "title": "Cameras of all types take the same pixel and height arguments", "statement": "pixel_to_world_z of frame, RPC and GCP cameras accepts the same shapes and data types of pixel coordinates and heights: several pixels with a single height, a height for each pixel, or one pixel with several heights.", "quantifier": "all shapes of ji and z, integer and floating point heights, all cameras", "why_tests_cant": "All shapes and data types for all camera types; the tests use floating point heights of matching length.", "anchors": ["orthority/camera.py:Camera.pixel_to_world_z", "orthority/camera.py:Camera._validate_z", "orthority/camera.py:RpcCamera.pixel_to_world_z", "orthority/camera.py:GcpCamera.pixel_to_world_z", "orthority/camera.py:FrameCamera.pixel_to_world_z"]}
{"id": "C112", "title": "Rounding in the RPC model moves pixels by less than interpolation does", "statement": "The source pixel that RpcCamera.world_to_pixel computes in float64 for a point in RPC (longitude, latitude, height) coordinates, and that remap converts to float32, differs from that of the exact RPC model by less than a bound that grows with the coefficients, normalised coordinates, pixel scales and inverse of the denominators; it is below 1/256 pixel for images of up to 32768 pixels a side, coefficients of up to 2, normalised coordinates of up to 1.5 and denominators of at least 1/2.", "quantifier": "all roundings within half a unit in the last place (any rule for ties), all RPC models and points within the given sizes", "why_tests_cant": "Tests compare with the results of rasterio at a few points; the error at other scales and coefficients is not tested.", "anchors": ["orthority/camera.py:464-489", "orthority/camera.py:366-377"]}
{"id": "C113", "title": "Interpolation types do what they say", "statement": "Orthos are made with the interpolation type that is asked for: 'average' averages the source pixels over the area of each ortho pixel, and is suited to downsampling; the others use the source pixels near the position that the camera sees the centre of the ortho pixel at.", "quantifier": "all images, cameras, DEMs and ortho resolutions", "why_tests_cant": "Tests check that remap accepts each type; whether 'average' averages depends on the image and on how many source pixels an ortho pixel covers.", "anchors": ["orthority/enums.py:82-105", "orthority/camera.py:386-395", "orthority/camera.py:928-935"]}
{"id": "C114", "title": "Ground that the source has no data for has no data in the ortho", "statement": "Where the camera sees a source pixel without data (one with the nodata value of the source file, or masked by its alpha band or mask), the pixel of the ortho has no data; and pixels without data have no effect on other pixels of the ortho.", "quantifier": "all source images with nodata values or masks, cameras, DEMs, data types and interpolation types", "why_tests_cant": "Test images have data everywhere; whether a hole is one in the ortho depends on the nodata value, data type and interpolation.", "anchors": ["orthority/camera.py:311-317", "orthority/camera.py:380-400", "orthority/ortho.py:424-482"]}
{"id": "C115", "title": "Refining again replaces the refinement before", "statement": "After any calls of RpcCameras.refine, the model of an image is the one that refining its original model with the GCPs of the last call for it gives: refinements do not add up. The GCPs that write_param writes beside the models are those that the models were refined with.", "quantifier": "all RPC models, refinement methods, GCPs and sequences of refine and get calls, including calls that raise", "why_tests_cant": "Tests refine a model once; what two or more refinements give depends on the algebra of all fits and on the state that is kept between calls.", "anchors": ["orthority/factory.py:308-362", "orthority/factory.py:378-394", "orthority/fit.py:49-130"]}
{"id": "C116", "title": "Pan-sharpening statistics are the same in every run", "statement": "The means and covariances that PanSharpen finds are those of all pixels that are valid in the pan and MS images, and are the same in every run with the same images, whatever the order in which the threads that read tiles complete.", "quantifier": "all images with up to 2^40 tiles and pixel values up to 2^200, orders of completion, orders in which numpy adds numbers, and roundings to nearest in float64", "why_tests_cant": "The order of threads changes from run to run and changes the rounding errors; a test sees one schedule of a small image, not the largest error over all schedules and sizes.", "anchors": ["orthority/pan_sharp.py:228-312", "orthority/pan_sharp.py:62-64"]}
{"id": "C117", "title": "Bad image tags are refused with an exception of the reader", "statement": "For any EXIF and XMP tags, ExifReader and its methods either return parameters, or raise FileNotFoundError for a file that is not there, RuntimeError for a file that cannot be opened or whose tags cannot be read, or ParamError for tags that are missing; no other exception escapes. Text that is not a number is never taken for a size, a focal length or an orientation.", "quantifier": "all lists of files, tag texts, XMP texts and number and XML parsers", "why_tests_cant": "Tests use a few images of known drones; the texts that a tag can have, and the ways in which parsing them can fail, are unbounded.", "anchors": ["orthority/param_io.py:1287-1363", "orthority/param_io.py:141-207", "orthority/exif.py:111-136", "orthority/exif.py:223-330"]}
{"id": "C118", "title": "Cameras and camera factories can be used in several threads", "statement": "When several threads use one FrameCamera, or cameras got from one FrameCameras factory, each image that is read and each projection is the one that the call gives alone: read() never returns an image of the wrong kind or raises because of another thread, undistort maps belong to the camera's alpha, and a projection uses the pose of the image whose camera was got.", "quantifier": "all numbers of threads, calls, band counts and interleavings of their loads and stores", "why_tests_cant": "Races depend on the interleaving of threads between single loads and stores, which tests cannot enumerate or force.", "anchors": ["orthority/camera.py:635-650", "orthority/camera.py:800-841", "orthority/camera.py:908-938", "orthority/camera.py:1051-1057", "orthority/factory.py:204-235"]}
{"id": "C119", "title": "Elevations are those of the vertical CRS of the world", "statement": "The elevation at which the camera sees each pixel of an ortho is the elevation of the DEM there, in the vertical units and datum of the world / ortho CRS: Ortho.process converts DEM elevations in other units, or above another geoid or ellipsoid, to elevations in the world CRS.", "quantifier": "all DEMs, pairs of CRSs with vertical units and datums, resolutions, cameras and interpolation types", "why_tests_cant": "Tests compare a few pairs of CRSs, which differ either in units or in datum, and by tolerances as large as a geoid height; the error of a pair that differs in both depends on the place.", "anchors": ["orthority/ortho.py:234-290"]}
{"id": "C120", "title": "oty odm orthorectifies the images of the dataset", "statement": "`oty odm` orthorectifies each image that OpenDroneMap reconstructed: its source images are the JPEG and TIFF files in the images directory of the dataset and below it, with extensions in any case, and when it ends the output directory has the ortho of each of them for which the reconstruction has a camera; the other files in the directory do not matter.", "quantifier": "all datasets, directory listings, reconstructions, options and existing files", "why_tests_cant": "Tests run the command on one dataset in which every file is an image with a shot; directories with images that could not be reconstructed, masks, subdirectories or earlier orthos are not tried, in all orders of the listing.", "anchors": ["orthority/cli.py:840-890", "orthority/cli.py:342-372", "orthority/factory.py:205-212"]}
{"id": "C121", "title": "Exported parameters give the orthos of the original command", "statement": "The files that `write_param` (`--export-params`) saves stand for the command that they come from: `oty frame` with the exported interior and exterior parameter files, or `oty rpc` with the exported RPC file and without refinement, for the same images, DEM, CRS and options, makes the same orthos as the original command (with refinement, for RPCs), and ends in the same way.", "quantifier": "all parameters that readers make, source images, DEMs, options, existing files and later calls that do not overwrite", "why_tests_cant": "Tests compare exported parameters with the originals for one dataset; that equal dictionaries lead to equal cameras and orthos for all images, orders of parameters, faults and refined models is not tried.", "anchors": ["orthority/factory.py:236-248", "orthority/factory.py:378-402", "orthority/factory.py:205-234", "orthority/cli.py:342-372"]}
{"id": "C122", "title": "Every image of a CSV file is read", "statement": "A CSV exterior parameter file gives exterior parameters for every image that has a row in it, under the field names of the user, else of the header if the file has one, else of the legacy format; the header is not taken for an image, and no image is taken for a header.", "quantifier": "all files with or without a header, numbers of rows and columns, blank lines, and user field names", "why_tests_cant": "Whether there is a header is guessed from the types and lengths of the values of the columns; tests try a few files.", "anchors": ["orthority/param_io.py:CsvReader._parse_file", "orthority/param_io.py:CsvReader.read_ext_param"]}
{"id": "C123", "title": "A call that raises leaves the camera factory as it was", "statement": "When a method of a camera factory raises, the camera objects the user has are unchanged, and every later call returns what it would have returned without the call that raised: `get` of FrameCameras and RpcCameras, and `refine` and `write_param` of RpcCameras.", "quantifier": "all factories, histories of calls, exceptions and later calls", "why_tests_cant": "It is about all states in which an exception can leave a factory and all sequences of calls after it; tests check that an exception is raised, not what follows.", "anchors": ["orthority/factory.py:FrameCameras.get", "orthority/factory.py:RpcCameras.get", "orthority/factory.py:RpcCameras.refine", "orthority/factory.py:RpcCameras.write_param"]}
{"id": "C124", "title": "The DEM coverage warning tells whether the DEM has the ground of the image", "statement": "Ortho.process() warns that an ortho is not fully covered by the DEM when part of the ground that the image shows is outside the DEM, or where the DEM has no elevation, and only then.  It raises OrthorityError when none of it has an elevation in the DEM.", "quantifier": "all frame, RPC and GCP cameras, DEMs, DEM surfaces and ways of drawing the boundary polygon", "why_tests_cant": "It compares a warning, made from rounded points of the image boundary on a cropped DEM, with the ground seen through all pixels of the image; tests check the warning for a few DEMs that are far too small.", "anchors": ["orthority/ortho.py:Ortho._mask_dem", "orthority/ortho.py:Ortho._get_init_dem", "orthority/camera.py:Camera._pixel_to_world_surf", "orthority/camera.py:FrameCamera.world_boundary"]}
{"id": "C125", "title": "Orthos do not depend on the origin and unit of world coordinates", "statement": "When the camera position, the DEM and the resolution are given in other world coordinates (another origin, another unit of length, such as feet for metres), Ortho reads the same part of the DEM and Ortho.process() makes an ortho with the same size, pixels, mask, overviews and profile, whose transform is that of the first in the new coordinates, or raises the same exception.  world_to_pixel(), pixel_to_world_z() and world_boundary() of a frame camera give the same pixels and points, and the default resolution is the same length.  This is in exact arithmetic.", "quantifier": "all changes of origin and unit, cameras, DEMs (in the ortho or another CRS), arguments and thread schedules", "why_tests_cant": "It relates two executions for all changes of coordinates; tests run with one or two CRSs, and compare orthos within a tolerance.", "anchors": ["orthority/ortho.py:Ortho._get_init_dem", "orthority/ortho.py:Ortho._get_gsd", "orthority/ortho.py:Ortho._reproject_dem", "orthority/ortho.py:Ortho._mask_dem", "orthority/ortho.py:Ortho.process", "orthority/camera.py:FrameCamera.world_to_pixel", "orthority/camera.py:FrameCamera.pixel_to_world_z", "orthority/camera.py:FrameCamera.world_boundary", "orthority/camera.py:Camera._pixel_to_world_surf"]}
{"id": "C126", "title": "Pan-sharpening does not depend on gain and offset of the pan image, and follows those of the MS image", "statement": "When two or more pixels of the MS grid have values: PanSharpen.process() with a pan image whose values are g * x + k in place of x, for any g > 0 and k, makes the same file or raises the same exception, with given or estimated weights.  With MS values g * x + k_i in band i, with one g > 0 for all bands, the pan-sharpened image has the same metadata and valid pixels, and g * y + k_i, before it is converted to the output type, in place of y.  This is in exact arithmetic.", "quantifier": "all pan and MS images, gains, offsets, arguments and thread schedules", "why_tests_cant": "It relates two executions for all images, gains and offsets; tests compare images with and without sharpening at some scales.", "anchors": ["orthority/pan_sharp.py:PanSharpen._get_stats", "orthority/pan_sharp.py:PanSharpen._get_params", "orthority/pan_sharp.py:PanSharpen._process_tile_array", "orthority/pan_sharp.py:PanSharpen.process"]}
{"id": "C127", "title": "The order of MS bands does not matter to pan-sharpening", "statement": "When PanSharpen.process() is called with the MS bands in another order, and with the weights, if given, in the same order, the pan-sharpened image has the same bands in that order: each with the pixels and colour interpretation it had before.  The profile, georeferencing, overviews and mask are the same.  This is for a pan image and MS bands that vary, with no MS band a combination of others, though the Gram-Schmidt steps take the bands one after the other.  It is in exact arithmetic.", "quantifier": "all images, band lists, orders, weights and thread schedules", "why_tests_cant": "It relates two executions for all permutations of bands and all images; the Gram-Schmidt coefficients of the two differ.", "anchors": ["orthority/pan_sharp.py:PanSharpen._get_params", "orthority/pan_sharp.py:PanSharpen._process_tile_array", "orthority/pan_sharp.py:PanSharpen.process"]}
{"id": "C128", "title": "Orthos follow gain and offset of the source image", "statement": "When the bands of a source image, as they are read in the floating point data type of the ortho, are changed by a gain and an offset, Ortho.process() makes an ortho whose pixels are changed by that gain and offset, with nodata and the mask where they were, and with the same profile, georeferencing, colour interpretation and overviews.  It is in exact arithmetic.  (With integer data types nodata is a number, that values can become.)", "quantifier": "all gains and offsets (negative and zero too), source images with and without NaNs, cameras with and without undistorted images, interpolation types, per_band and other options, DEMs and thread interleavings", "why_tests_cant": "A test has one image and one gain; the claim relates two runs for any images and gains, through undistortion, interpolation, masking and any interleaving of threads.", "anchors": ["orthority/ortho.py:345-482", "orthority/camera.py:319-399", "orthority/camera.py:922-938", "orthority/camera.py:1051-1116"]}
{"id": "C129", "title": "Nearest interpolation makes no new values", "statement": "With interp='nearest', each pixel of an ortho image is a pixel of the source image: there is a row and column of the source, the same for all bands, whose values (as read in the data type of the ortho) are those of the ortho pixel, or all bands of the ortho pixel are nodata.  So classes stay classes, and bands stay together, also when the image is undistorted first.  Replacing values of the source with a table that keeps nodata replaces the values of the ortho, and changes nothing else of it but the mask.", "quantifier": "all source images, cameras with and without undistorted images, data types, DEMs, resolutions, per_band and other options, and thread interleavings", "why_tests_cant": "A test can compare the values of some ortho with those of its source; the claim is for all images, and that bands written by different threads at different times come from one source pixel.", "anchors": ["orthority/ortho.py:345-482", "orthority/camera.py:319-399", "orthority/camera.py:922-938", "orthority/camera.py:1059-1116", "orthority/enums.py:80-110"]}
{"id": "C130", "title": "Bands of an ortho do not depend on each other", "statement": "A band of an ortho image depends on the same band of the source image and no other: when the other bands of the source have other values, or there are more or less of them, or they are in another order, Ortho.process() gives the band the same pixels at the same place.", "quantifier": "all source images, numbers and orders of bands, cameras, DEMs, interpolation types, data types, options and thread interleavings", "why_tests_cant": "The claim relates two runs for all pairs of images that share a band, with tiles of all bands, or of band after band, written by threads in any order.", "anchors": ["orthority/ortho.py:345-482", "orthority/camera.py:319-399", "orthority/camera.py:1059-1116"]}
