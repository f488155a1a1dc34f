# Formal model of orthority: design

Source: `/repo/orthority` (python).  Model and proofs: `/verif/lean/Verif` (Lean 4.33, Mathlib).
Properties: `/verif/properties.jsonl`.  Claims: `/verif/MANIFEST.json`.  Wrong-program trials: `/verif/seeded/LOG.jsonl`.

## 1. Method

* Each area of the code has a folder `Verif/<Area>/`: `Model.lean` holds the definitions (each cites the
  lines of `/repo` it models), `Lemmas.lean` the helper lemmas, and `Props.lean` the property theorems
  (named `Cnn_...`) with, beside each, an `example` that meets its hypotheses on a non-trivial case.
  Small specification definitions that the theorem statements use, and that are written without the model's
  helpers, are in `Spec.lean`, or at the top of `Props.lean`.
* Python exceptions are values (`Except PyErr α`).  Mutable state (camera caches, files, images, undistort
  maps) is explicit state passed through transition functions.
* Threads: a pool run is any permutation (completion order) of the submitted jobs.  Writes happen under a lock
  in the code, so each job's write is one atomic step; nothing else is shared.
* Numbers: python floats are modelled as elements of an ordered field (`K`, instantiated at `ℚ` in
  examples and at `ℝ` where trigonometry or square roots are used).  NaN (and other non-finite results) is
  `none` in `Option K` where the code depends on it.  Rounding error of binary floating point is
  bounded for the geometry of pinhole cameras (C90), RPC models (C112), GCPs (C103) and the statistics of pan-sharpening (C116), and not
  modelled elsewhere.
* Where the code violates the property a user would expect, the negation is proved with a concrete witness
  (theorem suffix `_fails`) and the part that holds is proved as `_partial`.

## 2. Trusted base

* Lean's kernel (and, for the gate, the kernel replay of the built modules).
* Axioms: only `propext`, `Classical.choice`, `Quot.sound`.  No own axioms, no `sorry`, no `native_decide`.
  `#print axioms` results are summarised in section 5.
* The correspondence between the definitions in `Model.lean` files and the python code, checked by reading.
* External libraries enter as parameters of the model with the assumptions recorded at the definition:
  `cv2.remap`, `cv2.undistortPoints`, `cv2.initUndistortRectifyMap`, `cv2.fillPoly`, `numpy.linalg.lstsq`,
  `rasterio.warp.transform/reproject`, GDAL raster I/O, `fsspec` file systems, YAML/JSON text encoding
  (modelled as identity on values, tuples becoming lists).

## 3. What is modelled, per property

| Property | Model | Proof idea |
|---|---|---|
| C01 tiles partition | `common.block_windows` as a list of windows on ℕ | division algorithm: window index = pixel / block; uniqueness by interval disjointness |
| C02 schedule independence | `_remap`/`_remap_tile`: image as function, tile writes folded over any permutation | disjoint writes commute; invariant over the fold; uses C01. `cv2.remap` refuses images with a side of 32767 or more pixels (`CV_Assert` on `SHRT_MAX` in OpenCV's remap): `C02_size_fails` |
| C03 tile grids | affine transform algebra | ring identity |
| C04 per band | two runs of `_remap` with band index lists | pixelwise equality of data; witness for the mask |
| C05 block size | remap as pixelwise function; dilation on tile | equality without dilation; witness with dilation |
| C06 remap mask | `Camera.remap` with `cv2.remap` as parameter with constant border | pixelwise case analysis; witness for value = nodata |
| C07 dilation | `cv2.dilate` by definition (max over kernel) | monotonicity |
| C08 default nodata | `FrameCamera.remap`/`Camera.remap` argument handling with errors as values | case analysis; witness of the exception |
| C09 window expansion | floor/ceil arithmetic in a floor ring | floor/ceil lemmas |
| C10 UTM | floor/mod arithmetic | floor lemmas |
| C11 dtype conversion | dtypes with ranges, values, rounding, wrapping cast | case analysis on dtypes; order reasoning |
| C12 profile | decision logic with creation options as association list | case analysis |
| C13 overviews | `Nat.log2` arithmetic | power bounds |
| C14, C15 files | file system as map; `Open`, `OpenRaster`, `write_*` as state transformers with failures | invariant by induction over histories; witness for C15 |
| C16 schema | nested values and schemas, `validate_collection` by recursion | structural induction against an inductive spec |
| C17, C18 readers total | reader functions on decoded values, all python exceptions explicit | case analysis from C16 |
| C19–C22 round trips | writers and readers on decoded values | induction over dictionaries |
| C23 parallel readers | futures, completion order as permutation | result read per future |
| C24 OpenSfM IDs | string prefix stripping, dict building | induction; witness of collision |
| C25 CSV | header decision function | case analysis |
| C26–C28 factories | caches as state machines with camera references (heap) | invariant by induction over histories; witnesses |
| C29 RPC | Horner form with NaN | ring |
| C30, C31 refinement | `refine_rpc` over a field; `lstsq` as normal equations | algebra; least squares lemma |
| C32 pinhole | matrices over a field | linear algebra |
| C33–C36 rotations | `ℝ`, sin/cos, `arg` | trigonometric identities, matrix algebra |
| C37, C38 intrinsics | `_get_intrinsic` decision logic | field algebra; witness (portrait) |
| C39, C40 horizon | linear functional on the pixel rectangle | convexity; witness for C40 |
| C41 surface | ray sampling with surface as parameter | list search lemma; intermediate value theorem for the accuracy; witness for vertical ray; surfaces of whole numbers are in `Frame/IntSurface.lean` |
| C42 boundary | `pixel_boundary` | case analysis, witness for the count |
| C43, C44 alpha | camera state machine; undistort intrinsic algebra | invariant; interval arithmetic |
| C45, C46 distortion | formulas over a field / ℝ | ring; witness at the axis |
| C47–C51 pan-sharpening maths | streaming statistics, Gram-Schmidt over a field / ℝ | induction over tiles and bands |
| C52, C53 pan-sharpening I/O | tile writes, VRT windows | as C02, C09 |
| C54 DEM crop | windows and arrays as functions | index arithmetic |
| C55 GSD | shoelace sum | sums over cyclic lists |
| C56, C57 EXIF | tag dictionaries, decision logic | case analysis, order arithmetic |
| C58, C59 CLI | batch loop with loop carried variables; option parsers | induction, witness |
| C60 broadcasting | shapes | case analysis |
| C61 undistort | frame camera with `distort` on/off, undistort maps and boundaries | composition of the pixel maps; the inverse as an assumption on OpenCV |
| C62 no new detail | C47–C51 models with `lstsq` as a least squares solution | uniqueness of the solution; Gram-Schmidt identity |
| C63 pan/ms check | bounds, resolutions and CRS units | case analysis; witness for units |
| C64 repeated processing | DEM arrays as references into a memory, in-place changes visible | invariant over sequences of calls |
| C65, C66 EXIF reader | list of images with futures, UTM zones; `Readers/Utm.lean` for the CSV and OpenSfM readers | induction over images and rows; floor arithmetic; witnesses |
| C67 interior files | the three file formats as decoded values | structural specification of a file, independent of the reader |
| C68 saved factories | `write_param` then the readers, over any file system and later histories | composition of C14, C15, C19–C22 |
| C69, C70 factory arguments | file endings, argument kinds, keyword dictionaries as mutable state | case analysis; witness over two calls |
| C71 XMP orientation | tag names, angles, the rotation of C33–C36; `Exif/View.lean`: the world direction that the camera looks in | trigonometric identities. Roll fails: 90° is added to the gimbal pitch, so that the roll is about the axis of the top of the image, and not about the direction of view. |
| C72 command errors | the sub-commands around the batch loop, exceptions as values | case analysis and induction over images |
| C73 RPC inverse | `pixel_to_world_z` of RPC and GCP cameras with GDAL's inverse as parameter | gather/scatter lemmas; witnesses |
| C74 image tags | tag contents of files read in a thread pool | C23 and an equivalence with a pointwise specification |
| C75, C76 fitting | `fit_frame_exterior` and `_fit_frame` with OpenCV's solvers as parameters | composition of C35, C38 and C45; offset algebra; witnesses |
| C77 path options | option callbacks with fsspec, rasterio and pathlib calls as parameters | case analysis against `CrsSays` |
| C78 world CRSs | CRS arguments of `FrameReader`, the readers' CRSs and `Ortho.__init__` | case analysis against `Names`/`NotGiven`; composition with C25 |
| C79 legacy command | `_simple_ortho` with files as a map, one camera object updated from image to image | induction over rows and images |
| C80 world boundary | `FrameCamera.world_boundary` over C41, C42, C39 and C61 | composition; rotation algebra; witnesses. `cv2.remap` refuses 32767 or more rows, columns or samples, so `C80_surface` and `C80_accuracy` ask for `Short` rays; `C80_long_fails`: exactly the others end in `cv2.error` |
| C81 cameras from files | constructors and `create_camera` on dictionaries of python values, over C24, C29, C37 and C45 | composition of reader theorems; case analysis |
| C82 ortho end to end | `Ortho.process` as a relation between file systems and results, with rasterio, GDAL and OpenCV as functions | composition of C01 to C07, C12, C54, C64, C81; fails at the `cv2.remap` size limit (`C82_size_fails`) |
| C83 pan-sharpening end to end | `PanSharpen.process` as a relation between file systems and results over the reals, with WarpedVRT bands, GDAL and `lstsq` as functions | composition of C01, C12, C14, C47, C50 (`C50_formula`), C51, C52, C53, C62 |
| C84 undistorted images | `FrameCamera.read`, `_validate_image`, `_undistort_im` and the two `_get_undistort_maps`, with the maps by the formulas of OpenCV's documentation, and `cv2.remap` as a function of the map, with the array passed as `dst` left alone when sizes differ | equality of OpenCV's maps and orthority's projection (C45); invariant of the state (C43) |
| C85 unfinished output | the tile workers of C02 and C52 with exceptions at any point of a worker, also in the middle of a write, and the file at every moment of `process` | invariant of the worker pool with a state for a partly written tile; composition with C02, C04, C52, C82, C83 |
| C86 OpenSfM files that are not right | `_read_osfm_int_param`, `read_osfm_int_param`, `OsfmReader` on any decoded JSON (`Readers/Osfm`, `Readers/OsfmInt`) | case analysis of the reader against a specification of right cameras, induction over cameras and shots; equivalence of acceptance with the specification |
| C87 commands from start to end | the loop of `_ortho` (cli.py:342-372) as a relation over states of the factory, CRS and file systems, with `FrameCameras.get`, `RpcCameras.get`, `create_camera`, `FrameCamera.read` and `Ortho.process` as modelled for C26 to C28, C81, C84, C82 | induction over source images with an invariant of the factory; composition of C26, C28, C29, C81, C82, C84; `C87_reports`: how errors at an image are reported |
| C88 file handles | what each function does with files, as a program of opens, `with` statements, uses, `try`, loops and thread pools (`Verif/Files/Handles.lean`), whose executions are traces of opens, uses and closes: any step may raise, files are paths, remote or the caller's, tasks of a pool interleave in any way until the pool is left | rules for each construct (a frame rule for interleaved threads), composed for each function; the specification is about traces only. What code does with an open file other than using it, locks, and progress bars are not in these programs. `C88_remote_fails`: `OpenRaster.__init__` leaves the fsspec file object open if GDAL cannot open it. `C88_sharpen_fails`: `sharpen` leaves the panchromatic image open if the multispectral image cannot be opened |
| C89 locks | the code of tile workers and of the threads that start them, as calls on datasets with a start and a finish, `with lock` and exceptions (`Verif/Files/Locks.lean`); executions are interleavings in which a lock is taken only when it is free | invariant: one holder per lock, and each use of a dataset is inside `with` its lock; this is why C02, C52 and C85 may model the write of a tile as one step. `C89_info_fails`: `ortho_im.profile` is read without the lock while other threads write. `C89_same_fails`: one dataset given as both images of `PanSharpen` has two locks. `C89_images_fails`: a dataset given twice to a reader of many images |
| C90 rounding | `world_to_pixel` of a pinhole camera, the grids of tiles and the conversion to `float32`, with each result rounded by a function of which only the bound of IEEE 754 (half a unit in the last place, above the subnormal range) is known; dot products are summed in any order, with products rounded or fused (`Verif/Base/Rounding.lean`, `Verif/Frame/Rounding.lean`) | forward error analysis, each operation in turn; `roundBits_rounds` shows that rounding to nearest meets the bound. Rotation and intrinsic matrices and heights are taken as they are stored, so the error of `sin` and `cos`, and of the DEM's reprojection, is not included; distortion models are not included |
| C91 no deadlock | the threads of C89 (`Verif/Files/Progress.lean`); that the calling thread waits for the others, and that a pool runs a number of tasks at a time, are not in the model, but the theorem says that the holder of a lock can always go on, whatever else waits | no code takes a lock inside another, so locks are held only while nothing is waited for; lengths of executions are bounded by the size of the codes |
| C92 arguments | `Memory/Model.lean`: what each function does with references: new objects, aliases and views, items, in-place changes, calls, branches and loops; any command can raise. The contents of objects are arbitrary. numpy's rules on views and copies, and that library functions change only `dst`/`out`, are assumed (stated at the top of the file). | `Memory/Props.lean`: a check on the code is proved sound by induction (`sound`), then evaluated for each function. Partial: `RpcCameras.refine` and `FrameCameras.from_images` change objects of the caller (`C92_refine_fails`, `C92_from_images_fails`). |
| C93 `oty sharpen` | `Cli/CommandSharp.lean`: the command from its parsed options: the callback of `--weight`, opening of the images, band checks (`sharpenCmd` of C72), the constructor (`getGrids` of C53) and `process` (`Process` of C83). | Composition of C53, C59, C72 and C83: output (`C93_output`, `C93_pixels`), errors and files (`C93_errors`, `C93_files`), completion (`C93_completes`). Partial: with one MS band that decreases as pan increases the command ends with a traceback after it replaced the output (`C93_single_fails`). |
| C94 YAML aliases | `ParamIO/Alias.lean`: the dictionaries of cameras as objects in a store; `parse_yaml_param` as its statements, each of which takes an item out of the dictionary. | Refinement: for files without sharing the statements give what the model on values (`readOtyInt` of C67) gives (`C94_distinct_partial`). Partial: a file in which two cameras share a dictionary is always refused (`C94_alias_fails`, `C94_example_fails`). |
| C95 file names | `Files/Names.lean`: `get_filename` on paths, `OpenFile`s, datasets and file objects with their `filename` attributes; `Path.name` and `Path.stem`; `OpenRaster` and `Open` as far as names go. fsspec and GDAL are parameters. | Induction over the ways to pass a file (`C95_name_partial`, `C95_opened_partial`); with C26 for lookups (`C95_camera_partial`). Partial: chained URIs have another name as a string than as an `OpenFile` (`C95_chain_fails`); file objects of descriptors raise (`C95_number_fails`); file objects without a name all have the same one (`C95_unnamed_fails`). |
| C96 inputs are kept | `Cli/Inputs.lean`: the paths that commands read and write, and executions that can stop anywhere; contents are abstract. | Induction over executions (`C96_no_overwrite`, `C96_apart_partial`, `C96_names`). Partial: with `--overwrite`, inputs whose paths are those of outputs are replaced (`C96_source_fails`, `C96_sharpen_fails`, `C96_params_fails`). |
| C97 warning filters | `Readers/Warnings.lean`: the filter lists as objects; `catch_warnings` and `simplefilter` of the standard library as their statements; the tasks of a pool in any interleaving. | Invariants over all interleavings: other warnings are treated as before (`C97_others_partial`); one file or thread (`C97_alone_partial`); a caller with a block of their own (`C97_wrapped_partial`). Partial: for two or more files and threads there are schedules that leave the filter in place (`C97_left_fails`) or show the warning (`C97_shown_fails`, `C97_command_fails`). |
| C98 `.prj` files | `Readers/Prj.lean`: the path that `CsvReader` looks for, on text, and the CRS through `csvInit` of C25. | Lists of characters (`C98_extension_partial`, `C98_path_partial`). Partial: names without an extension lose a character (`C98_bare_fails`), or a directory its extension (`C98_directory_fails`). |
| C99 whole numbers | `Rpc/Whole.lean`: numbers as integers and floats; NumPy's rule for the type of an array and for operations in place; `refine_rpc` and `world_to_pixel` with these types; GCPs through the reader of C19. | Equality with the model on floats (`C99_camera_partial`, `C99_refine_partial`). Partial: arrays of integers raise `ValueError` or `TypeError` (`C99_camera_fails`, `C99_world_fails`, `C99_pixel_fails`). |
| C100 GCP cameras | `Rpc/GcpInit.lean`: `GcpCamera.__init__` and the constructor of rasterio's `GroundControlPoint`. | Induction over the GCPs (`C100_objects_partial`). Partial: any dictionary raises (`C100_dict_fails`). |
| C101 CSV poses | `Factory/CsvPose.lean`: the CSV reader of C25 and the factory of C26, joined. | From rows to cameras, for every history of calls (`C101_pose`); images without a row (`C101_missing`). |
| C102 runs of commands | `Cli/Again.lean`: the outputs of a command by name (as in C96), each a function of its inputs; runs that stop anywhere and leave unfinished outputs; two commands in any interleaving. The CRS is not taken from the first source. | Induction over runs and interleavings (`C102_resume_partial`, `C102_again_partial`, `C102_possible_partial`, `C102_refused`, `C102_parts`, `C102_parallel_partial`). Partial: false of commands that write to their inputs (`C102_source_fails`, `C102_sharpen_fails`). |
| C103 GCPs in float32 | `Frame/FitRounding.lean`: the mean, differences and conversions of `_gcps_to_cv_coords`, one axis at a time, with rounding as in C90 and sums in any order. | Error bounds by induction over sums (`C103_world`, `C103_metres`, `C103_pixel`). |
| C104 fitted cameras | `Factory/Fitted.lean`: parameter dictionaries of `fit.py`; cameras of `Factory/Create.lean`. | Composition of C75, C76 and C81 (`C104_documented`, `C104_created`, `C104_fitted_partial`, `C104_gcps_partial`). Not: poses at phi of 90 or -90 degrees, and exterior fits of fisheye cameras, see C35 and C75. |
| C105 OpenSfM cameras | `Factory/OsfmSees.lean`: reference point and poses of `OsfmReader`, as the parameters of `FrameCameras`; cameras of `Factory/Create.lean`. OpenSfM's projection is written down separately (`opensfm`). | Composition of C24, C26, C35 and C81 (`C105_seen_partial`, `C105_sees_partial`). False in portrait format, where focal lengths are scaled by image width (`C105_portrait_fails`). Not: `transform` of the reference point, which is a parameter. |
| C106 DEM crop and seen ground | `Dem/Sees.lean`: `initDem` (C54) with the boundary of a frame camera (C80). Seen ground is written with the projection of the camera only (`SeesGround`). | `C106_pinhole_partial`: where rays of image pixels meet a level is in the box of the corner rays (a ratio of mixtures is between the ratios), boxes at elevations between two others are in their boxes, and windows of boxes hold their pixels. False with distortion, as eight points do not bound a bulging side (`C106_distorted_fails`), and for datums that differ by more than a constant (`C106_datum_fails`). RPC cameras in `Dem/SeesRpc.lean` (boundary of C108): `C106_rpc_partial` when coordinates of the ground do not turn along rows, columns and rays of the image; with rays that turn the crop loses ground (`C106_rpc_fails`) or ends in `WindowError` (`C106_rpc_error_fails`). GCP cameras in `Dem/SeesGcp.lean`: the same (`C106_gcp_partial`), all affine transforms (`C106_gcp_affine_partial`), and ground lost with transforms of order two (`C106_gcp_fails`). DEMs in another horizontal CRS in `Dem/SeesCrs.lean`: `C106_crs_partial` and `C106_rpc_crs_partial`, for a `transform_bounds` that gives bounds of all that is in the bounds it is given (it is a parameter; GDAL samples 21 points of each side). The range of heights that is searched is in `Dem/Range.lean` (units of z are a parameter): -106.71 m to 8932.28 m (`C106_range`, `C106_metres_partial`). Lower ground is lost (`C106_low_fails`), and cameras that are not above -106.71 m have no ortho (`C106_below_fails`): the Dead Sea and other depressions. |
| C107 boundary polygon | `Dem/Footprint.lean`: `worldBoundary` (C80) with Mathlib's `convexHull`; the ground seen is written with the projection of the camera only (`SeenLevel`). | `C107_level_partial`, `C107_surface_partial`: a ray between two rays meets a level between where they do (projective weights), so all that is seen is in the hull of the corners; points seen on one side of a line in the image are convex, so all of the hull is seen. `C107_corners` says when the corners are in the boundary. False for narrow images whose short sides get no points (`C107_narrow_fails`, for every such camera), and with distortion (`C107_distorted_fails`, the 400 points of the mask). Ground that is not level in `Dem/Relief.lean`: the hull of the boundaries at the two extremes is all that is seen between them (`C107_range_partial`), but the boundary on the surface leaves out valleys between its rays, for every number of points (`C107_relief_fails`). GCP cameras in `Dem/FootprintGcp.lean`: the polygon is exact on every DEM for affine transforms (`C107_gcp_partial`), and not for those of order two (`C107_gcp_fails`), nor for RPC models (`C107_rpc_fails`, `Dem/FootprintRpc.lean`). Not: rounding of the polygon to DEM pixels in `cv2.fillPoly`. |
| C108 RPC boundary | `Rpc/Boundary.lean`: the base `Camera.world_boundary` and `_pixel_to_world_surf` over `pixel_to_world_z` of C73, with `nan` coordinates. | `C108_elevation`, `C108_surface`, `C108_gcp`: composition with C73 and C41; hypotheses on GDAL's inverse and the CRS only at the pixels and heights used (`RightAt`), as in `C73_inverse_local`. `C108_accuracy_partial`: intermediate value theorem, within ρ pixels when the ground moves at most ρ times as fast as on average. Not within a pixel in general: `C108_accuracy_fails`, for any number of pixels. `C108_nan`, `C108_refuses`, `C108_string_interp_fails`: errors. `C108_long_fails`: surfaces of 32767 rows or columns, and ground that crosses more than 32765 pixels of the surface, end in `cv2.error`. Not: infinite coordinates. |
| C109 messages | `Cli/Logging.lean`: `_configure_logging`, the redirection to `tqdm.write`, `logging` and `warnings.showwarning` as process globals that commands change. | `C109_messages`, `C109_warnings`, `C109_module`: induction over the commands run before. `C109_others_partial`: warnings from outside the directory that orthority is installed in. Those of other packages in it are taken for orthority's: `C109_packages_fails`. Handlers stay after a command: `C109_after_fails` (once for each command), `C109_streams_fails` (also to replaced streams). Legacy command: `C109_legacy_partial` with `-v`; without it the documented default is not set (`C109_legacy_default_fails`), and nothing goes through tqdm, so that messages are repeated (`C109_legacy_repeat_fails`). Not: which warnings Python's filters and registry let through. |
| C110 mosaics | `Ortho/Mosaic.lean`, over `Ortho/Process.lean` and `Dem/Model.lean`: two objects made with one DEM, `process` of each. `rasterio.warp.reproject` in one CRS keeps the upper left corner (hypothesis `Anchored`). | Holds at the resolution of a DEM in the CRS of the orthos: `C110_grid_partial`, and both orthos show the same points of the ground: `C110_ground_partial` (cameras that do not dilate). Other resolutions: `C110_exact` (exactly when the corners of the cropped DEMs differ by whole ortho pixels), so when DEM pixels are a multiple of ortho pixels: `C110_multiple_partial`. Fails else: `C110_resolution_fails` (3 m orthos on a 2 m DEM), `C110_default_fails` (default resolution, different GSDs). `Ortho/MosaicCrs.lean`: DEMs in another CRS, with the corner of the reprojected DEM as a parameter (`Cornered`): `C110_crs_exact`, `C110_crs_fails`. |
| C111 arguments of cameras | `Rpc/Accepts.lean`, over `Frame/Model.lean` and `Rpc/Inverse.lean`: the checks of `pixel_to_world_z`, and the assignment of NaN to the heights of RPC and GCP cameras. Only the data type of `z` is modelled, as integer or not. | Exactly which arguments each camera takes: `C111_frame`, `C111_rpc_partial`. Fails: integer arrays (`C111_int_fails`), an array of one height (`C111_one_fails`). |
| C112 rounding in RPC models | `Rpc/Rounding.lean`: the definition `poly` of `Rpc/Model.lean` at numbers whose sums and products are rounded, with the normalisation, quotient, scale and offset rounded too. Rounding as in C90. Input coordinates are taken as they are: the error of PROJ, for cameras with a CRS, is not included. | Forward error analysis: `C112_world_to_pixel`, `C112_subpixel`. |
| C113 interpolation types | `Ortho/Interp.lean`: `to_cv`, with `cv2.remap` a function of the OpenCV type, the band and the position, of which two things are assumed that OpenCV documents: it takes `INTER_LINEAR` for `INTER_AREA`, and a sample depends on pixels under a kernel of fixed size. | `C113_near` holds of all types. `average` fails: `C113_average_same_fails` (the ortho is that of `bilinear`, whole runs of `process` compared), `C113_average_fails` (the sample is not the mean over the pixel's area when that has 5 by 5 source pixels or more). |
| C114 source nodata | `Ortho/SrcNodata.lean`: source files with values and masks; `Camera.read` reads the values only. `cv2.remap` is the function of C113, of which the nearest pixel and the mean half way between two pixels are assumed. | Fails: `C114_fails` (holes with another value than the ortho's nodata are valid in the ortho), `C114_blend_fails` (with `bilinear`, any value of a hole is mixed into pixels beside it). `C114_partial`: with `nearest`, when holes have the ortho's nodata value. |
| C115 refining again | `Rpc/Again.lean`: sequences of `refine_rpc`, and of calls for a factory that keeps its GCPs. | Induction over the history: a refined model is the original with an affine transform of each axis, and fits are unique up to it (`C115_shift_partial`, `C115_drift_partial`, `C115_saved_partial`). Fails: a shift after shift-drift keeps the drift (`C115_mixed_fails`); only the GCPs of the last call are written (`C115_saved_fails`). |
| C116 repeatable statistics | `PanSharp/Rounding.lean`: `_get_stats` with every operation rounded, sums in any order, tiles in any order. | Forward error analysis by induction over the tiles that have completed (`C116_accurate_partial`, `C116_runs_partial`). Fails bit for bit: two orders of the same three tiles give means that differ in the last place (`C116_bits_fails`). |
| C117 bad image tags | `Exif/Bad.lean`: `ExifReader` from files whose tags are any text; number and XML parsers are parameters. | Case analysis of exceptions through the folds over files (`C117_refused`, `C117_reader`, `C117_interior_partial`, `C117_exterior`). Fails: a 35 mm focal length with two numbers is a TypeError (`C117_tuple_fails`). |
| C118 cameras in threads | `Frame/Threads.lean`, `Factory/Threads.lean`: `read`, `world_to_pixel`, `update`, the setter of `alpha` and `FrameCameras.get` as their loads and stores of fields, in any interleaving. | Inductive invariants over interleavings (`C118_reads`, `C118_ends`, `C118_projects_partial`, `C118_factory_partial`). Fails when another thread sets `alpha` (`C118_distorted_fails`, `C118_error_fails`, `C118_stale_fails`) or the pose (`C118_pose_fails`, `C118_factory_fails`). |
| C119 vertical CRS | `Ortho/Vertical.lean`: `z_scale` and the elevations that `reproject` gives with it. That GDAL's warper multiplies by `MULT_FACTOR_VERTICAL_SHIFT` and subtracts the elevation of the world's zero, times a factor that is 1 unless set, is an assumption about GDAL (`Warp`). | Exact value for all units and datums (`C119_exact`), from which `C119_partial` for the same units or the same datum, end to end with C82. Fails for other units with another datum (`C119_fails`). |
| C120 images of a dataset | `Cli/Dataset.lean`: the listing of the file system and the shots of the reconstruction are given; the extension test, the lookup of cameras by name and the batch loop of C58 and C72 are modelled. | Characterisation of the sources for all listings (`C120_sources`); induction over the loop (`C120_partial`). Fails for every dataset with an image file that has no shot (`C120_unreconstructed_fails`), such as masks (`C120_mask_fails`) or orthos of an earlier run (`C120_again_fails`). |
| C121 orthos of exported parameters | `Cli/Exported.lean`: the writers and readers of C20-C22 and C68, `create_camera` of C81, the factories of C03 and C28 and the command loop of C87, put together; the decoding of YAML and GeoJSON and the CRS library are given, as in C68. | Equal dictionaries make the same camera (`createCamera_congr`), and factories with the same cameras the same run, by induction over the loop (`loop_same`): `C121_frame_partial`, `C121_rpc`. Fails with a camera whose ID is `camera` (`C121_camera_fails`). |
| C122 images of a CSV file | `Readers/Header.lean`: `csv.Sniffer.has_header` and `csv.DictReader` after CPython 3.11 (Lib/csv.py), with `_parse_file` and `read_ext_param`; splitting of text into rows and cells is given. | Votes of columns: a column of numbers votes for a header whose name is not a number, and against a first row with a number, so the majority decides (`C122_header_partial`, by induction over the checked rows and a sum over columns), then C25 for the rows (`C122_images_partial`). Fails for a single row without header, a blank line before the header, and many columns of short texts. |
| C123 factories after exceptions | `Factory/Raised.lean`: `FrameCameras.get` of C64 and `RpcCameras` of C31 with the argument of `refine` (dictionary, images, file) and what it leaves in the factory when it raises; reading of GCPs is a parameter. | Simulation: the states with and without the call that raised agree on the camera objects from before, and calls keep this (`C123_frame`); `RpcCameras.get` changes nothing (`C123_rpc_get`). For `refine` only what is left can be said (`C123_unread`, `C123_refine_partial`, `C123_retry_partial`): images before the one that raises are refined. |
| C124 DEM coverage warning | `Dem/Covered.lean`: `_get_init_dem` and `_mask_dem` of C54 with `world_boundary` of C80 on the cropped DEM; the interpolated surface and `cv2.fillPoly` are parameters (no values outside the DEM; vertices are drawn). | Each point of the boundary is on its ray, where the surface has a value or at the lowest elevation. Points outside round outside, points inside round inside. `C124_warns`, `C124_left_out`, `C124_refused`, `C124_held` in full; `C124_quiet_partial` for pinhole cameras with boundary points off the border of the crop, from the cover of C54 and C106. `C124_lowest` gives the counterexample `C124_near_fails`. `Dem/CoveredRpc.lean`: the same for `world_boundary` of RPC and GCP cameras (C108). |
| C125 other world coordinates | `Ortho/Moved.lean`, `Ortho/MovedFrame.lean`: two runs of the models of C54, C82, C80 and C55, related by a change of origin and unit. That `rasterio` reprojects, transforms bounds and rounds to float32 the same in both is a hypothesis; the first elevation range is an input, so elevations may only change in unit (C106). | Windows, masks, kernels and grids are unchanged, by algebra; a simulation of the thread pool from equal tiles; induction over lists of points. |
| C126 gain and offset of pan and MS | `PanSharp/Radiometry.lean`: two runs of the model of C83, with pixels related by a gain and offsets. That GDAL's average and interpolation keep gain and offset, and that `np.linalg.lstsq` gives a multiple for multiples of matrix and right side (`Scales`), are assumptions; `inverseLs` shows that the second can be met. | Batch statistics by algebra; weights are scaled and then normalised; induction over the Gram-Schmidt rows and components, with NaN; the thread pool sees equal tiles. |
| C127 order of MS bands | `PanSharp/BandOrder.lean`: two runs of the model of C83 with a permutation of the bands. That the result of `np.linalg.lstsq` for an unknown does not depend on the order of unknowns (`OrderFree`) is an assumption; `inverseLs` shows that it can be met. | Permutation of sums for weights and simulated pan; the closed form of C50 for both runs; gain and offset that match mean and variance are unique. |
| C128 gain and offset of the source | `Ortho/Radiometry.lean`: two runs of the model of C82, with `cv2.remap` as in C113. That interpolation is a mean with weights that add up to one (`Follows`), without rounding, is an assumption; `follows0` shows that nearest and bilinear interpolation meet it. | Each sample of the second run is that of the first with the gain and offset, through both remaps of undistorted images; nodata is NaN, so there is no dilation (C07), and pixels and masks of both runs are those of C02 and C04. |
| C129 values with nearest | `Ortho/Nearest.lean`: the model of C82, with `cv2.remap` as in C113. That `INTER_NEAREST` copies a pixel whose place does not depend on values (`Copies`) is an assumption; `copies0` shows that rounding of coordinates meets it. | No dilation with `nearest` (C07); the value of each pixel is that of C02, and the places of both remaps of undistorted images compose. |
| C130 bands do not depend on each other | `Ortho/Bands.lean`: two runs of the model of C82, with source images that share a band. | The DEM is the same in both runs; without dilation the value of each pixel is that of C02, with `per_band` that of the tile of the band alone. Without `per_band`, cameras that dilate are a counterexample, so partial. |

## 4. Not modelled

Floating point rounding outside C90, C103, C112 and C116; text encodings of YAML/JSON/CSV/XML; GDAL and PROJ behaviour (reprojection, masks,
compression); OpenCV's numerical solvers (their outputs are parameters with stated assumptions); progress
bars, logging and warnings (except where a decision depends on them, and the warning filters of C97); memory use and
speed.

## 5. Results

### Axioms

`#print axioms` over all property theorems gives subsets of `propext`, `Classical.choice`, `Quot.sound` and nothing else
(about three quarters use all three, the others `propext` and `Quot.sound`, `propext` alone, or none).

### Where the code does not do what its interface says

Each of these is a theorem with the suffix `_fails`: for a concrete case, or for all inputs of a kind, the model of the code
differs from the property.

| Theorem | Behaviour |
|---|---|
| `C04_mask_fails`, `C04_dilated_data_fails` | with `per_band` the mask is that of band 1, and dilation differs between the modes |
| `C05_dilated_fails` | the dilated nodata area depends on the block size |
| `C06_fails` | valid pixels whose bands all equal nodata are masked |
| `C08_default_nodata_fails`, `C08_default_nodata_undistorted_fails` | `remap` without `nodata` looks a dtype object up in a dictionary of names: `KeyError` |
| `C12_mask_options_fails` | a compression in the creation options does not switch the internal mask |
| `C13_min_level_pixels_fails` | the smallest overview can be larger than `min_level_pixels` when that is no power of two |
| `C14_handle_fails`, `C15_atomic_fails` | `overwrite` does not hold for file objects; `write_param` writes the interior file before it finds that there is no CRS |
| `C16_*_fails`, `C18_int_total_fails` | empty lists and schemas, and values of unexpected type, end in `IndexError`, `AttributeError` or `TypeError` |
| `C19_no_gcps_fails`, `C20_fails`, `C21_empty_fails`, `C22_integer_offset_fails` | dictionaries that are written and cannot be read back |
| `C23_same_name_fails`, `C25_same_name_fails` | files of the same name in different directories overwrite each other's parameters |
| `C24_collision_fails`, `C24_reconstructions_fails` | OpenSfM cameras whose IDs differ in the prefix only; files with several reconstructions |
| `C25_bad_rows_fails` | bad values in CSV rows end in `ValueError` or `TypeError` |
| `C27_fails`, `C28_stem_fails`, `C28_atomic_fails` | cameras returned before are changed by later calls of `get`; `refine` with keys that are stems |
| `C31_drift_same_column_fails` | shift-drift refinement breaks a perfect model when the GCPs are in one column |
| `C34_gimbal_fails`, `C35_gimbal_fails`, `C36_tilted_fails` | angles at gimbal lock (`C34_exact`, `C35_exact`: exactly when there is another angle too); a north vector that is not horizontal |
| `C37_portrait_fails`, `C57_portrait_fails`, `C57_resized_fails` | focal lengths of portrait and resized images |
| `C38_skew_fails` | a calibration with skew is fitted without it |
| `C40_fails`, `C41_vertical_fails`, `C41_integer_fails`, `C80_integer_fails` | points behind the camera; vertical rays that miss the surface; surfaces with integer elevations |
| `C42_odd_fails`, `C42_even_fails` | number of boundary points |
| `C46_axis_fails` | fisheye model on the optical axis is NaN |
| `C49_duplicate_fails`, `C51_*_fails`, `C52_dark_pixels_fails`, `C53_window_error_fails`, `C63_units_*fails` | degenerate pan-sharpening inputs and units |
| `C56_other_refs_fails`, `C56_domain_fails`, `C65_zoom_fails`, `C66_antimeridian_fails` | EXIF tags |
| `C66_csv_antimeridian_fails`, `C66_csv_empty_fails` | CSV files with positions on both sides of the 180° meridian, or without rows |
| `C58_*_fails`, `C59_*_fails`, `C72_export_fails` | batches without `--crs`, equal stems, creation options, exported geographic CRS |
| `C68_stale_gcps_fails`, `C69_empty_fails`, `C70_*_fails` | GCP files left in the directory; empty interior parameters; keyword arguments changed by `from_images` |
| `C71_roll_fails`, `C71_over_fails` | gimbal roll in XMP tags swings the direction of view |
| `C73_single_z_fails`, `C73_crs_fails`, `C74_no_crs_fails` | one-element `z` arrays; vertical CRSs that agree at the model centre only; GCP tags without a CRS |
| `C75_fisheye_fails`, `C76_counts_fails`, `C76_tilted_fails`, `C76_images_fails` | fisheye exterior fits use another model; images with different GCP counts; GCPs on a tilted plane; several images with fewer equations than parameters |
| `C77_*_fails`, `C78_*_fails` | CRS options that name an image without a CRS or are long strings; the root directory; geographic CRSs in Orthority exterior files; CRS strings that `Ortho` cannot read |
| `C80_string_interp_fails` | `world_boundary` of a surface with `interp` as a string |
| `C81_values_fails` | `create_camera` of parameters that pass the readers: text for `cx`, an image size of one value or of three |
| `C82_interp_fails` | `Ortho.process` with an unknown `interp`: ValueError after the output was replaced by an image without data |
| `C83_replaced_fails` | pan-sharpening one MS band that decreases with pan: TypeError after the output was replaced by an image without data |
| `C83_crs_fails` | pan image without a CRS: the output has the coordinates of the MS image, but no CRS, although the warning says that the MS CRS is assumed |
| `C84_default_fails` | `FrameCamera.read` with `distort=False` and no nodata: KeyError, not the documented default |
| `C84_size_fails` | image of another size than the camera's, with `distort=False`: only a warning, and an image of nodata |
| `C84_limit_fails` | image with a side of 32767 pixels: passes the check ("should be less than 32767"), then OpenCV refuses it |
| `C85_per_band_fails` | band by band, the mask is written with the first band: when a later band cannot be read, pixels marked valid are left with blank bands |
| `C86_type_fails` | a projection type that is not a string raises `AttributeError` |
| `C86_root_fails` | an interior parameter file that is a list of one number raises `TypeError` |
| `C86_whole_fails` | whole numbers without a decimal point are refused as coordinates of a reconstruction |
| `C93_single_fails` | `oty sharpen` of one MS band that decreases with pan: traceback after the output was replaced |
| `C94_alias_fails` | interior parameter files with cameras that share parameters through a YAML alias are refused |
| `C95_chain_fails`, `C95_number_fails`, `C95_unnamed_fails` | names of chained URIs and of file objects without a file name |
| `C96_source_fails`, `C96_sharpen_fails`, `C96_params_fails` | with `--overwrite`, inputs that have the path of an output are replaced |
| `C97_left_fails`, `C97_shown_fails`, `C97_command_fails` | threads that save and restore the global warning filters leave `NotGeoreferencedWarning` ignored, or show it |
| `C98_bare_fails`, `C98_directory_fails` | the `.prj` file of a CSV file without an extension is looked for under another name |
| `C99_camera_fails`, `C99_world_fails`, `C99_pixel_fails` | world coordinates that are all integers raise `ValueError`; pixel coordinates and offsets that are all integers raise `TypeError` |
| `C100_dict_fails` | `GcpCamera` with a dictionary raises `ValueError` |
| `C102_source_fails`, `C102_sharpen_fails` | a command with an output in place of an input makes something else when it is run again |
| `C105_portrait_fails` | cameras of OpenSfM reconstructions in portrait format |
| `C106_distorted_fails`, `C106_datum_fails`, `C106_low_fails`, `C106_below_fails`, `C106_gcp_fails` | ground that is outside the DEM crop: with distortion, with another vertical datum, low ground, and GCP transforms of order two |
| `C107_narrow_fails`, `C107_distorted_fails`, `C107_relief_fails`, `C107_gcp_fails`, `C107_rpc_fails` | ground that is seen and is outside the polygon of `world_boundary()` |
| `C108_accuracy_fails`, `C108_string_interp_fails`, `C108_long_fails`, `C80_long_fails` | boundaries of RPC cameras on steep ground; interpolation types as strings; surfaces and rays longer than `cv2.remap` takes |
| `C02_size_fails`, `C82_size_fails` | sources, and tiles, with a side of 32767 pixels |
| `C109_packages_fails`, `C109_after_fails`, `C109_streams_fails` | warnings of other packages; log handlers that stay after a command |
| `C110_resolution_fails`, `C110_default_fails`, `C110_crs_fails` | orthos that do not share a pixel grid |
| `C111_int_fails`, `C111_one_fails` | arguments that frame cameras take and RPC cameras refuse |
| `C113_average_fails` | `average` makes the ortho that `bilinear` makes |
| `C114_fails`, `C114_blend_fails` | source pixels without data are taken as data |
| `C115_mixed_fails`, `C115_saved_fails` | a shift after shift-drift keeps the drift; only the GCPs of the last `refine` are written |
| `C116_bits_fails` | statistics of pan-sharpening in two runs are not identical bit for bit |
| `C117_tuple_fails` | a 35 mm focal length tag with two numbers raises TypeError when interior parameters are read |
| `C118_distorted_fails`, `C118_error_fails`, `C118_stale_fails` | `alpha` set in one thread while another reads: a distorted image, a TypeError, or maps of the former alpha that are kept for later reads |
| `C118_pose_fails`, `C118_factory_fails` | `update` in one thread while another projects: rotation and position of different poses; threads that get images of one camera from one factory project with each other's poses |
| `C119_fails` | a DEM with other vertical units and another vertical datum than the world: the datum shift is not scaled to the units of the world (e.g. 68 m for a DEM in feet with a shift of 30 m) |
| `C120_unreconstructed_fails`, `C120_mask_fails`, `C120_again_fails` | `oty odm` stops at the first image file without a shot in the reconstruction (an image that OpenDroneMap dropped, a mask, or an ortho in the images directory): images listed after it get no ortho |
| `C121_camera_fails` | after exporting the parameters of two cameras, one with the ID `camera`, `oty frame` with the exported files stops with an error at an image of the other camera |
| `C122_single_row_fails` | the only row of a CSV file without a header is taken as its header: with `fieldnames` no image is read and there is no error, without them a legacy file of one image is refused |
| `C122_blank_line_fails` | a CSV file with a blank line before its header raises `ValueError` |
| `C122_texts_fails` | the header of a CSV file with many other columns of short texts is not found, and reading the file raises `ValueError` |
| `C123_refine_fails` | when `refine` raises for an image (too few GCPs for shift and drift), the images before it have been refined, and `write_param` writes these models and the GCPs |
| `C123_nothing_fails` | `refine([])` raises `AttributeError`, and the GCPs of the refinement before it are no longer written |
| `C72_no_sources_fails` | `oty rpc --rpc-param FILE --gcp-refine tags` without images ends with the traceback of an `AttributeError` |
| `C72_few_gcps_fails` | `oty rpc --gcp-refine FILE --refine-method shift-and-drift` with one GCP for an image ends with the traceback of a `ValueError` |
| `C124_near_fails` | no warning for a camera beside the DEM that shows ground outside it: rays to that ground go on below it into the DEM |
| `C124_edge_fails` | the warning is given for a DEM with all the ground of the image and a pixel more at each side, when the ground ends on edges of DEM pixels |
| `C126_gains_fails` | With given weights, gains that differ between MS bands change the other bands too: band 1 of a pixel is 0 with two like bands, and 2/5 when band 2 is doubled. Weights are for the values of the bands as they are. |
| `C127_dependent_fails` | With two MS bands of the same values (one band given twice) the first is a number and the second NaN, so that the order matters. |
| `C128_integer_fails` | With an integer type, an offset of -1 makes a pixel of value 1 nodata in the ortho. |
| `C130_dilated_fails` | With undistorted images (not nearest, nodata not NaN) and without `per_band`, a pixel of a band becomes nodata or not by the values of other bands nearby. |

### Wrong-program trials

`seeded/LOG.jsonl` has one line per trial: the definition, the edit, the claim it breaks, the theorems that failed, and the
theorems tightened when none did.  `failed` and `failed_lemmas` are the claimed theorems, and other lemmas, at which the rebuild reported an error.
`use_failed` is not observed: it lists the claimed theorems (of the last commit, so some are newer than the trial) whose proofs use one that failed, and
which were therefore left without a proof.  A trial where only lemmas failed shows that the proof no longer goes through, which is weaker than that
each claim listed is false of the edited program.  `claim_from: theorems` marks edits made by a generator of operator, constant and argument
changes: their claim is the titles of up to three properties of these theorems, and was not judged edit by edit.
