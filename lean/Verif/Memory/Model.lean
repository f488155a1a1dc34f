import Mathlib.Logic.Function.Basic
import Mathlib.Data.Nat.Notation

/-
Which objects (arrays, dictionaries, lists) calls change in place.

The code is modelled by what it does with references: which names get new objects, which get an
existing object or a view of it, which objects are changed in place.  The values are not modelled
here (they are in the other parts of the model): a new object or a changed object has any content.

numpy: an operator (`a - b`, `a * b`), `np.array`, `np.full`, `np.zeros`, `np.vstack`, `.copy()`,
`.astype(t)`, `.dot` and an index with a mask give a new array; `.T`, `.reshape`, `.view`, `.squeeze`,
a slice or an integer index give the same memory; `.astype(t, copy=False)` gives either.
An assignment to an index or slice, an augmented assignment, `out=` and `dst=` change the memory.
Calls of library functions (cv2, rasterio, yaml, json) are assumed to change only `dst` and `out`.
-/
set_option autoImplicit false

namespace Verif.Memory

/-- Names of the variables of a function. -/
abbrev Var := String

/-- A location in memory: one object. -/
abbrev Loc := ℕ

/-- An object: its own content, and the objects that it holds (values of a dictionary, items of a
list, attributes that hold an object of the caller). -/
abbrev Obj := ℕ × List Loc

/-- The memory, the variables, and the first location that is not used yet. -/
structure St where
  env : Var → Loc
  heap : Loc → Obj
  next : Loc

/-- What a piece of code does with references.  `item x y` stands for `x = y[..]` and for the loop
variable in `for x in y`; `call f dst args` for `dst = f(..)`, where `f` leaves its result in the
variable `res`. -/
inductive Cmd where
  | skip
  | fresh (x : Var)
  | alias (x y : Var)
  | item (x y : Var)
  | write (x : Var)
  | seq (a b : Cmd)
  | alt (a b : Cmd)
  | loop (a : Cmd)
  | call (f : Cmd) (dst : Var) (args : List (Var × Var))

/-- The variables when a function is called with `args`, a list of parameters and arguments. -/
def bindArgs (args : List (Var × Var)) (env : Var → Loc) : Var → Loc :=
  fun v => match args.lookup v with
    | some a => env a
    | none => env v

/-- Commands in turn. -/
def blk : List Cmd → Cmd
  | [] => .skip
  | a :: l => .seq a (blk l)

/-- `Ex c s s' r`: from `s`, the code `c` can end in `s'`, with an exception when `r`.  Any command
can raise, and one that changes an object can raise when the object is partly changed. -/
inductive Ex : Cmd → St → St → Bool → Prop
  | raise (c : Cmd) (s : St) : Ex c s s true
  | skip (s : St) : Ex .skip s s false
  | fresh (x : Var) (s : St) (o : Obj) :
      Ex (.fresh x) s
        ⟨Function.update s.env x s.next, Function.update s.heap s.next o, s.next + 1⟩ false
  | alias (x y : Var) (s : St) :
      Ex (.alias x y) s ⟨Function.update s.env x (s.env y), s.heap, s.next⟩ false
  | item (x y : Var) (s : St) (l : Loc) (h : l ∈ (s.heap (s.env y)).2) :
      Ex (.item x y) s ⟨Function.update s.env x l, s.heap, s.next⟩ false
  | write (x : Var) (s : St) (o : Obj) (r : Bool) :
      Ex (.write x) s ⟨s.env, Function.update s.heap (s.env x) o, s.next⟩ r
  | seq (a b : Cmd) (s t u : St) (r : Bool) (h₁ : Ex a s t false) (h₂ : Ex b t u r) :
      Ex (.seq a b) s u r
  | seqRaise (a b : Cmd) (s t : St) (h : Ex a s t true) : Ex (.seq a b) s t true
  | altL (a b : Cmd) (s t : St) (r : Bool) (h : Ex a s t r) : Ex (.alt a b) s t r
  | altR (a b : Cmd) (s t : St) (r : Bool) (h : Ex b s t r) : Ex (.alt a b) s t r
  | loopEnd (a : Cmd) (s : St) : Ex (.loop a) s s false
  | loopStep (a : Cmd) (s t u : St) (r : Bool) (h₁ : Ex a s t false) (h₂ : Ex (.loop a) t u r) :
      Ex (.loop a) s u r
  | loopRaise (a : Cmd) (s t : St) (h : Ex a s t true) : Ex (.loop a) s t true
  | call (f : Cmd) (dst : Var) (args : List (Var × Var)) (s t : St)
      (h : Ex f ⟨bindArgs args s.env, s.heap, s.next⟩ t false) :
      Ex (.call f dst args) s ⟨Function.update s.env dst (t.env "res"), t.heap, t.next⟩ false
  | callRaise (f : Cmd) (dst : Var) (args : List (Var × Var)) (s t : St)
      (h : Ex f ⟨bindArgs args s.env, s.heap, s.next⟩ t true) :
      Ex (.call f dst args) s ⟨s.env, t.heap, t.next⟩ true

/-! ### Cameras

Arguments and the result have their names in the code; the result is `res`.  `self` and all that the
object made for itself (matrices, cached cameras and maps) is one object, `self`. -/

/-- `FrameCamera._camera_to_pixel`, camera.py:789-792: `ji = K.dot(xyz_)[:2]`, a view of a new
array. -/
def camToPixFrame : Cmd := .fresh "ji"

/-- `OpenCVCamera._camera_to_pixel`, camera.py:1257-1260: a view of the array from
`cv2.projectPoints`. -/
def camToPixCv : Cmd := .fresh "ji"

/-- `BrownCamera._camera_to_pixel`, camera.py:1346-1364: changes rows 0 and 1 of `xyz_` in place. -/
def camToPixBrown : Cmd :=
  blk [.fresh "xy", .fresh "r2", .write "xyz_", .write "xyz_", .fresh "ji"]

/-- `FisheyeCamera._camera_to_pixel`, camera.py:1457-1482: `xyz_[:2] *= theta_d / r`. -/
def camToPixFish : Cmd :=
  blk [.fresh "r", .fresh "theta", .fresh "theta_d", .write "xyz_", .fresh "ji"]

/-- `_camera_to_pixel` of any camera. -/
def camToPix : Cmd := .alt (.alt camToPixFrame camToPixCv) (.alt camToPixBrown camToPixFish)

/-- `FrameCamera.world_to_pixel`, camera.py:816-841. -/
def frameW2p : Cmd :=
  blk [.fresh "xyz_", .fresh "xyz_", camToPix, .alias "res" "ji"]

/-- `FrameCamera._pixel_to_camera`, camera.py:794-798, `OpenCVCamera._pixel_to_camera`,
camera.py:1262-1266, and `FisheyeCamera._pixel_to_camera`, camera.py:1484-1488: `ji` as `float64`,
without a copy when it has that type; `np.vstack` gives a new array. -/
def pixToCam : Cmd :=
  blk [.alt (.alias "ji_" "ji") (.fresh "ji_"), .fresh "ji_", .fresh "xyz_"]

/-- `FrameCamera.pixel_to_world_z`, camera.py:843-880. -/
def frameP2wz : Cmd :=
  blk [pixToCam, .fresh "xyz_r", .fresh "scales", .fresh "xyz", .alias "res" "xyz"]

/-- `FrameCamera._distort_pixel` and `_undistort_pixel`, camera.py:882-906: `np.clip` gives a new
array, `.T` is a view. -/
def distortPix : Cmd :=
  blk [pixToCam, camToPix, .alt (.fresh "ji") .skip, .alias "res" "ji"]

/-- `FrameCamera.update`, camera.py:800-814, with `_get_extrinsic`, camera.py:697-715: new matrices
in `self`. -/
def frameUpdate : Cmd := blk [.fresh "R", .fresh "T", .write "self"]

/-- `RpcCamera.world_to_pixel`, camera.py:450-489. -/
def rpcW2p : Cmd :=
  blk [.alt (blk [.fresh "mask", .fresh "xyz_", .write "xyz_"]) (.fresh "xyz_"),
    .write "xyz_", .write "xyz_",
    -- `poly`, 464-476: `res` is a new array, changed in place
    .loop (blk [.fresh "poly_res", .write "poly_res", .write "poly_res"]),
    .fresh "i", .fresh "j", .fresh "ji", .write "ji", .write "ji", .alias "res" "ji"]

/-- `RpcCamera.pixel_to_world_z`, camera.py:491-511. -/
def rpcP2wz : Cmd :=
  blk [.fresh "z", .alt (.fresh "ji") .skip, .fresh "mask", .fresh "xy", .write "z", .write "xy",
    .fresh "xyz", .alt (.write "xyz") .skip, .alias "res" "xyz"]

/-- `GcpCamera.pixel_to_world_z`, camera.py:541-556. -/
def gcpP2wz : Cmd :=
  blk [.fresh "z", .alt (.fresh "ji") .skip, .fresh "mask", .fresh "xy", .write "z", .write "xy",
    .fresh "xyz", .alias "res" "xyz"]

/-- `GcpCamera.world_to_pixel`, camera.py:533-539: a new array from the transformer. -/
def gcpW2p : Cmd := blk [.fresh "ji", .alias "res" "ji"]

/-- `world_to_pixel` of any camera. -/
def w2p : Cmd := .alt frameW2p (.alt rpcW2p gcpW2p)

/-- `pixel_to_world_z` of any camera. -/
def p2wz : Cmd := .alt frameP2wz (.alt rpcP2wz gcpP2wz)

/-- `Camera._pixel_to_world_surf`, camera.py:103-165.  `ji[:, pi]` and its reshape are views of the
argument. -/
def p2wSurf : Cmd :=
  blk [
    .call p2wz "min_xyz" [("ji", "ji"), ("z", "min_z")],
    .call p2wz "max_xyz" [("ji", "ji"), ("z", "max_z")],
    .fresh "xyz",
    .loop (blk [
      .alias "src_pt" "ji", .alias "start_xyz" "max_xyz", .alias "stop_xyz" "min_xyz",
      .fresh "ray_z",
      .call p2wz "ray_xyz" [("ji", "src_pt"), ("z", "ray_z")],
      .fresh "zsurf_ji", .alt .skip (.fresh "zsurf_ji"), .fresh "zsurf_z", .write "zsurf_z",
      .alias "zsurf_min_xyz" "ray_xyz",
      .write "xyz"]),
    .alias "res" "xyz"]

/-- `Camera.remap`, camera.py:357-399.  The result is the array and the mask: `res`, `res_mask`. -/
def camRemap : Cmd :=
  blk [
    .fresh "xyz_all",
    .call w2p "ji" [("xyz", "xyz_all")],
    .write "ji", .fresh "j", .fresh "i",
    .fresh "remap_array",
    .loop (blk [.alias "band" "im_array", .alias "out_band" "remap_array", .write "out_band"]),
    .fresh "remap_mask",
    .alias "res" "remap_array", .alias "res_mask" "remap_mask"]

/-- `FrameCamera.remap`, camera.py:1100-1116. -/
def frameRemap : Cmd :=
  blk [
    camRemap, .alias "remap" "res", .alias "mask" "res_mask",
    .alt (blk [.fresh "kernel", .fresh "mask", .write "remap"]) .skip,
    .alias "res" "remap", .alias "res_mask" "mask"]

/-- `remap` of any camera. -/
def remap : Cmd := .alt camRemap frameRemap

/-- `FrameCamera._undistort_im`, camera.py:908-938: keeps the maps in `self`, and returns the
argument itself when the camera has no maps. -/
def undistortIm : Cmd :=
  blk [.write "self",
    .alt (.alias "res" "im_array")
      (blk [.fresh "und_array",
        .loop (blk [.alias "band" "im_array", .alias "out_band" "und_array", .write "out_band"]),
        .alias "res" "und_array"])]

/-- `FrameCamera.read`, camera.py:1051-1057, with `Camera.read`, camera.py:311-317. -/
def frameRead : Cmd :=
  blk [.fresh "indexes_", .fresh "im_array",
    .alt undistortIm (.alias "res" "im_array")]

/-! ### Orthos and pan-sharpened images -/

/-- `Ortho._remap_tile`, ortho.py:345-399: a task of a worker thread.  `src_array`, `dem_array`,
`init_xgrid` and `init_ygrid` are shared between the tasks. -/
def remapTile : Cmd :=
  blk [
    .fresh "tile_xgrid", .fresh "tile_ygrid",
    .alias "tile_xgrid" "tile_xgrid", .alias "tile_ygrid" "tile_ygrid",
    .alias "tile_zgrid" "dem_array",
    .fresh "src_res", .fresh "ortho_res", .fresh "kernel_size",
    .call remap "tile_array"
      [("im_array", "src_array"), ("x", "tile_xgrid"), ("y", "tile_ygrid"), ("z", "tile_zgrid")],
    .fresh "not_mask"]

/-- `common.convert_array_dtype`, common.py:501-529: documented to round in place; the clip is in a
new array, and the result is the argument when the types are the same. -/
def convertArray : Cmd :=
  blk [
    .alt (.write "array") .skip,
    .alt (blk [.fresh "array", .write "array"]) .skip,
    .alt (.fresh "array") .skip,
    .alias "res" "array"]

/-- `PanSharpen._process_tile`, pan_sharp.py:480-515, with `_process_tile_array`, 418-478: a task of
a worker thread.  `means`, `coeffs` and `weights` (in `params`) are shared between the tasks. -/
def sharpTile : Cmd :=
  blk [
    .fresh "pan_array", .fresh "ms_array",
    .fresh "pan_mask", .fresh "ms_mask", .fresh "mask",
    -- an index with a mask: new arrays
    .fresh "pan_array_", .fresh "ms_array_",
    .alias "means_" "means",
    -- `gs_foward`
    .fresh "gs_array", .write "gs_array",
    .loop (blk [.item "phi" "coeffs", .write "gs_array"]),
    .write "gs_array",
    -- `gs_reverse` writes into `ms_array_`
    .loop (blk [.item "phi" "coeffs", .write "ms_array_"]),
    .alias "out_array_" "ms_array_",
    .call convertArray "out_array_" [("array", "out_array_")],
    .fresh "out_array", .write "out_array"]

/-- `common.create_profile`, common.py:416-498: the options are read, and copied into the new
profile. -/
def createProfile : Cmd :=
  blk [
    .alt (.alias "options" "creation_options") (.fresh "options"),
    .fresh "profile", .alt (.write "profile") .skip,
    .alt (.write "profile") (.write "profile"),
    .alias "res" "profile"]

/-- `Ortho.process`, ortho.py:589-625, with `_reproject_dem`, 234-290, `_mask_dem`, 292-343, and
`_remap`, 424-482: `self` is the camera here.  The tasks run in other threads; they are in turn
here. -/
def orthoProcess : Cmd :=
  blk [
    .alt (.fresh "dem_array") (.fresh "dem_array"),
    .call p2wSurf "poly_xy" [("z", "dem_array")],
    .fresh "poly_ji", .fresh "poly_mask", .write "poly_mask", .fresh "dem_mask",
    .alt (blk [.alias "dem_array" "dem_array", .alias "dem_mask" "dem_mask"]) .skip,
    .alt (.write "dem_array") .skip,
    .call createProfile "ortho_profile" [("creation_options", "creation_options")],
    .write "ortho_profile",
    .fresh "init_xgrid", .fresh "init_ygrid",
    .loop (blk [
      .call frameRead "src_array" [],
      .loop (.call remapTile "done" [("src_array", "src_array"), ("dem_array", "dem_array")])])]

/-! ### Fits and factories -/

/-- `refine_rpc`, fit.py:49-130.  `rpc` is a dictionary (of an `RPC` object, `to_dict` makes one);
`deepcopy` makes the result, whose items are then replaced. -/
def refineRpc : Cmd :=
  blk [
    .fresh "camera", .alt (.fresh "rpc_") (.alias "rpc_" "rpc"),
    -- `_norm_ji`, 82-86
    .fresh "ji_gcp", .fresh "norm_ji", .write "norm_ji", .alias "ji_gcp" "norm_ji",
    .fresh "xyz", .call rpcW2p "ji_rpc" [("xyz", "xyz")],
    .fresh "norm_ji", .write "norm_ji", .alias "ji_rpc" "norm_ji",
    .fresh "refine_tform", .loop (.write "refine_tform"),
    .fresh "refined_rpc",
    .loop (blk [.fresh "coeff", .write "refined_rpc", .write "coeff", .fresh "coeff_list",
      .write "refined_rpc"]),
    .alias "res" "refined_rpc"]

/-- `_gcps_to_cv_coords`, fit.py:133-155. -/
def gcpsToCv : Cmd :=
  blk [
    .fresh "jis", .fresh "xyzs",
    .loop (blk [.item "gcps" "gcp_dict", .fresh "gcp_ji", .fresh "gcp_xyz",
      .alt (.fresh "gcp_xyz") .skip, .fresh "gcp_ji", .write "jis", .write "xyzs"]),
    .fresh "ref_xyz", .fresh "xyzs"]

/-- `_fit_frame`, fit.py:186-296. -/
def fitFrame : Cmd :=
  blk [
    .loop (.item "gcps" "gcp_dict"), gcpsToCv, .fresh "zs",
    .alt (blk [.fresh "xyzs", .fresh "jis"]) .skip,
    .fresh "K", .fresh "rs", .fresh "ts",
    .fresh "c_xy", .write "c_xy", .fresh "dist_param", .fresh "int_param", .fresh "int_param_dict",
    .fresh "ext_param_dict",
    .loop (blk [.fresh "ext_param", .write "ext_param_dict"]),
    .alias "res" "int_param_dict", .alias "res_ext" "ext_param_dict"]

/-- `fit_frame_exterior`, fit.py:321-360. -/
def fitExterior : Cmd :=
  blk [
    .item "int_param" "int_param_dict", .loop (.item "gcps" "gcp_dict"),
    .fresh "K", .fresh "dist_param", gcpsToCv,
    .fresh "ext_param_dict",
    .loop (blk [.item "pt_xyz" "xyzs", .item "pt_ji" "jis", .fresh "r", .fresh "t",
      .fresh "ext_param", .write "ext_param_dict"]),
    .alias "res" "ext_param_dict"]

/-- `write_int_param`, param_io.py:587-597, `write_ext_param`, 619-644, `write_rpc_param`, 662-668,
and `write_gcps`, 687-700, up to the write of the file: each builds a new dictionary or list from
the items of the argument. -/
def writeParam : Cmd :=
  blk [
    .fresh "out",
    .loop (blk [.item "param" "param_dict", .fresh "out_param", .write "out_param",
      .write "out_param", .write "out"]),
    .fresh "json_dict"]

/-- `RpcCameras.__init__`, factory.py:264-276, with a dictionary: `self._rpc_param_dict` is the
dictionary of the caller. -/
def rpcInit : Cmd := blk [.fresh "cameras", .alias "self._rpc_param_dict" "rpc_param"]

/-- `RpcCameras.refine`, factory.py:342-362, with a dictionary of GCPs: `rpc_param['rpc']` is
assigned in the dictionary of the image (line 358). -/
def rpcRefine : Cmd :=
  .loop (blk [
    .item "rpc_param" "self._rpc_param_dict",
    .alt
      (blk [.write "self", .item "rpc" "rpc_param",
        .call refineRpc "refined" [("rpc", "rpc")], .write "rpc_param"])
      .skip])

/-- `RpcCameras.get`, factory.py:364-376, and `FrameCameras.get`, factory.py:205-236: parameters are
read, the camera made on first use is kept in `self`, and the camera changed by `update` is part of
`self`. -/
def camerasGet : Cmd :=
  blk [
    .item "ext_param" "param_dict", .item "int_param" "int_param_dict",
    .alt (blk [.fresh "camera", .write "self"]) .skip,
    .alt frameUpdate .skip]

/-- `FrameCameras.from_images`, factory.py:134-139: `io_kwargs.update(crs=...)` on the argument, or
on a new dictionary when it is `None` or empty. -/
def frameFromImages : Cmd :=
  blk [.alt (.alias "io_kwargs_" "io_kwargs") (.fresh "io_kwargs_"),
    .fresh "int_param_dict", .fresh "ext_param_dict", .write "io_kwargs_"]

end Verif.Memory
