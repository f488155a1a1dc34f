import Verif.ParamIO.Oty

/-!
# Model of file output: `Open`, `OpenRaster` and the functions that write files

The file system is a map from paths to contents.  Paths are taken to be in one normal form (two different
paths are two different files).  What can go wrong in the operating system, `fsspec` or GDAL is a parameter
(`Fault`) of each write.  Sidecar files that GDAL may make are not modelled, nor are other processes.
-/

set_option autoImplicit false

namespace Verif.Files

open ParamIO

/-- A file system: the content of each file that exists. -/
abbrev FS (B : Type) := String → Option B

variable {B F C : Type}

def FS.put (fs : FS B) (p : String) (b : Option B) : FS B := fun q => if q = p then b else fs q

/-- What is passed as the file to write: a path (or URI or `PathLike`), an `OpenFile` with its mode, an open
file object or dataset (on the file at `p`, opened by the caller before) or something else. -/
inductive Target
  | path (p : String)
  | ofile (p : String) (mode : String)
  | handle (p : String) (mode : Option String) (closed : Bool)
  | other

/-- A failure while a file is opened or written, with the content that it leaves. -/
structure Fault (B : Type) where
  err : PyErr
  left : Option B

/-- orthority/common.py:367-404 `Open.__init__` (mode `wt`) and 266-336 `OpenRaster.__init__` (mode `w`,
`fileMode` is then `wb`): the path that is written to, or the error raised before the file is touched.
Simplified: for a dataset, `OpenRaster` tests that the mode of the dataset contains `w`, here that it is
`mode`. -/
def openCheck (fs : FS B) (mode fileMode : String) (overwrite : Bool) : Target → Res String
  | .handle p m closed =>
    if closed then .error .osError
    else if m.getD mode ≠ mode then .error .osError
    else .ok p
  | .ofile p m =>
    if fileMode ≠ m then .error .osError
    else if !overwrite && (fs p).isSome then .error .fileExistsError
    else .ok p
  | .path p => if !overwrite && (fs p).isSome then .error .fileExistsError else .ok p
  | .other => .error .typeError

/-- `with Open(file, mode, overwrite=overwrite) as f: ...` that writes `b`, unless there is a fault. -/
def writeWith (fs : FS B) (mode fileMode : String) (t : Target) (overwrite : Bool) (b : B)
    (fault : Option (Fault B)) : FS B × Res Unit :=
  match openCheck fs mode fileMode overwrite t with
  | .error e => (fs, .error e)
  | .ok p => match fault with
    | none => (fs.put p (some b), .ok ())
    | some f => (fs.put p f.left, .error f.err)

/-- How values are made into text and back. -/
structure Codec (F B : Type) where
  dump : Py F → B
  load : B → Option (Py F)

/-- orthority/param_io.py:570-597 `write_int_param`. -/
def writeIntParam (cd : Codec F B) (fs : FS B) (t : Target) (d : Dict String (Dict String (Py F)))
    (overwrite : Bool) (fault : Option (Fault B)) : FS B × Res Unit :=
  writeWith fs "wt" "wt" t overwrite (cd.dump (writeInt d)) fault

/-- orthority/param_io.py:600-645 `write_ext_param`. -/
def writeExtParam (cd : Codec F B) (lib : CrsLib C) (lla : C → List (Py F) → List (Py F)) (fs : FS B)
    (t : Target) (d : Dict String (Ext F)) (crs : C) (overwrite : Bool) (fault : Option (Fault B)) :
    FS B × Res Unit :=
  match writeExt lib lla d crs with
  | .error e => (fs, .error e)
  | .ok v => writeWith fs "wt" "wt" t overwrite (cd.dump v) fault

/-- orthority/param_io.py:648-670 `write_rpc_param`. -/
def writeRpcParam (cd : Codec F B) (fs : FS B) (t : Target) (d : Dict String (Dict String (Py F)))
    (overwrite : Bool) (fault : Option (Fault B)) : FS B × Res Unit :=
  writeWith fs "wt" "wt" t overwrite (cd.dump (writeRpc d)) fault

/-- orthority/param_io.py:673-700 `write_gcps`. -/
def writeGcpFile (cd : Codec F B) (fs : FS B) (t : Target) (d : Dict String (List (Gcp F))) (overwrite : Bool)
    (fault : Option (Fault B)) : FS B × Res Unit :=
  writeWith fs "wt" "wt" t overwrite (cd.dump (writeGcps d)) fault

/-- orthority/ortho.py:555-628 and pan_sharp.py:585-670, `Ortho.process` and `PanSharpen.process`: `pre` is
an error before the output file is opened; the output is opened; tiles, masks and overviews are written,
with any fault. -/
def writeRaster (fs : FS B) (t : Target) (overwrite : Bool) (pre : Option PyErr) (b : B)
    (fault : Option (Fault B)) : FS B × Res Unit :=
  match pre with
  | some e => (fs, .error e)
  | none => writeWith fs "w" "wb" t overwrite b fault

/-- The two files that orthority/factory.py:236-248 writes, joined to the directory. -/
def intFile (dir : String) : String := dir ++ "/int_param.yaml"
def extFile (dir : String) : String := dir ++ "/ext_param.geojson"
def rpcFile (dir : String) : String := dir ++ "/rpc_param.yaml"
def gcpFile (dir : String) : String := dir ++ "/gcps.geojson"

/-- orthority/factory.py:236-248 `FrameCameras.write_param`. -/
def frameWriteParam (cd : Codec F B) (lib : CrsLib C) (lla : C → List (Py F) → List (Py F)) (fs : FS B)
    (dir : String) (ints : Dict String (Dict String (Py F))) (exts : Dict String (Ext F)) (crs : Option C)
    (overwrite : Bool) (f1 f2 : Option (Fault B)) : FS B × Res Unit :=
  match writeIntParam cd fs (.ofile (intFile dir) "wt") ints overwrite f1 with
  | (fs, .error e) => (fs, .error e)
  | (fs, .ok ()) => match crs with
    | none => (fs, .error .crsMissingError)
    | some crs => writeExtParam cd lib lla fs (.ofile (extFile dir) "wt") exts crs overwrite f2

/-- orthority/factory.py:378-394 `RpcCameras.write_param`. -/
def rpcWriteParam (cd : Codec F B) (fs : FS B) (dir : String) (rpcs : Dict String (Dict String (Py F)))
    (gcps : Option (Dict String (List (Gcp F)))) (overwrite : Bool) (f1 f2 : Option (Fault B)) :
    FS B × Res Unit :=
  match writeRpcParam cd fs (.ofile (rpcFile dir) "wt") rpcs overwrite f1 with
  | (fs, .error e) => (fs, .error e)
  | (fs, .ok ()) => match gcps with
    | none => (fs, .ok ())
    | some g =>
      if g.isEmpty then (fs, .ok ())
      else writeGcpFile cd fs (.ofile (gcpFile dir) "wt") g overwrite f2

/-- A call of one of the library functions that write files, with the faults it meets. -/
inductive Op (F C B : Type)
  | intParam (t : Target) (d : Dict String (Dict String (Py F))) (fault : Option (Fault B))
  | extParam (t : Target) (d : Dict String (Ext F)) (crs : C) (fault : Option (Fault B))
  | rpcParam (t : Target) (d : Dict String (Dict String (Py F))) (fault : Option (Fault B))
  | gcpPts (t : Target) (d : Dict String (List (Gcp F))) (fault : Option (Fault B))
  | raster (t : Target) (pre : Option PyErr) (b : B) (fault : Option (Fault B))
  | frame (dir : String) (ints : Dict String (Dict String (Py F))) (exts : Dict String (Ext F))
      (crs : Option C) (f1 f2 : Option (Fault B))
  | rpc (dir : String) (rpcs : Dict String (Dict String (Py F))) (gcps : Option (Dict String (List (Gcp F))))
      (f1 f2 : Option (Fault B))

def Op.run (cd : Codec F B) (lib : CrsLib C) (lla : C → List (Py F) → List (Py F)) (overwrite : Bool)
    (fs : FS B) : Op F C B → FS B × Res Unit
  | .intParam t d f => writeIntParam cd fs t d overwrite f
  | .extParam t d crs f => writeExtParam cd lib lla fs t d crs overwrite f
  | .rpcParam t d f => writeRpcParam cd fs t d overwrite f
  | .gcpPts t d f => writeGcpFile cd fs t d overwrite f
  | .raster t pre b f => writeRaster fs t overwrite pre b f
  | .frame dir ints exts crs f1 f2 => frameWriteParam cd lib lla fs dir ints exts crs overwrite f1 f2
  | .rpc dir rpcs gcps f1 f2 => rpcWriteParam cd fs dir rpcs gcps overwrite f1 f2

/-- A history of calls; the caller goes on after exceptions. -/
def runAll (cd : Codec F B) (lib : CrsLib C) (lla : C → List (Py F) → List (Py F)) (overwrite : Bool)
    (fs : FS B) (ops : List (Op F C B)) : FS B :=
  ops.foldl (fun fs op => (op.run cd lib lla overwrite fs).1) fs

end Verif.Files
