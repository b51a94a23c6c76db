import Verif.Protocol.Conform.AlterReplicaLogDirs
/-!
Generated by tools/gen_protocol.py: the AlterReplicaLogDirs request is read as the protocol says.
-/
namespace Kafka.Msg

open Protocol

/-- What `AlterReplicaLogDirTopic34` holds after reading the value `x` into `t0`. -/
def AlterReplicaLogDirTopic34.of (_v : Int16) (x : Val) (_t0 : AlterReplicaLogDirTopic34) : AlterReplicaLogDirTopic34 :=
  { Name := (x.get "Name").toStr,
    Partitions := (x.get "Partitions").toSlice Val.toInt32 }

theorem AlterReplicaLogDirTopic34.decodes {v : Int16} (hv : 0 ≤ v) (x : Val) (h : Protocol.AlterReplicaLogDirTopic.Valid false v x) (t0 : AlterReplicaLogDirTopic34) :
    Reads (AlterReplicaLogDirTopic34.decode v t0) (Protocol.AlterReplicaLogDirTopic.wire false v x) (AlterReplicaLogDirTopic34.of v x t0) :=
  Reads.congr (((Step.field (set := fun (t : AlterReplicaLogDirTopic34) x => { t with Name := x }) (read_string (Fields.Valid.head (h) hv)))
      |>.andThen (Step.field (set := fun (t : AlterReplicaLogDirTopic34) x => { t with Partitions := x }) (read_int32Array (Fields.Valid.head (Fields.Valid.tail h) hv))) : Step _ _ _) t0)
    (Writes.eq (fs := Protocol.AlterReplicaLogDirTopic) (v := v) (x := x) <| Writes.all hv rfl <| Writes.all hv rfl <| Writes.done).symm rfl

theorem AlterReplicaLogDirTopic34.parses {v : Int16} (hv : 0 ≤ v) (t0 : AlterReplicaLogDirTopic34) :
    Parses (AlterReplicaLogDirTopic34.decode v t0) ((Ty.struct Protocol.AlterReplicaLogDirTopic).parse v) (fun x => AlterReplicaLogDirTopic34.of v x t0) :=
  FParses.parses (fs := Protocol.AlterReplicaLogDirTopic)
    (FParses.field hv (set := fun (t : AlterReplicaLogDirTopic34) x => { t with Name := x }) par_string <|
    FParses.field hv (set := fun (t : AlterReplicaLogDirTopic34) x => { t with Partitions := x }) par_int32Array <|
    FParses.done)
    (by simp only [AlterReplicaLogDirTopic34.decode, Dec.andThen_nop]) (Fields.distinct_nodup _ (by decide +kernel)) (fun _ _ => rfl) t0

theorem AlterReplicaLogDirTopic34.shown {v : Int16} (hv : 0 ≤ v) (x : Val) (h : Protocol.AlterReplicaLogDirTopic.Typed v x) :
    Protocol.AlterReplicaLogDirTopic.shows v x (AlterReplicaLogDirTopic34.val (AlterReplicaLogDirTopic34.of v x {})) = true :=
  Shows.all hv (show_string (Fields.Typed.head (h) hv)) <|
    Shows.all hv (show_int32Array (Fields.Typed.head (Fields.Typed.tail h) hv)) <|
    rfl

/-- What `AlterReplicaLogDir34` holds after reading the value `x` into `t0`. -/
def AlterReplicaLogDir34.of (v : Int16) (x : Val) (t0 : AlterReplicaLogDir34) : AlterReplicaLogDir34 :=
  { Path := (x.get "Path").toStr,
    Topics := (x.get "Topics").toSliceOr (fun y => AlterReplicaLogDirTopic34.of v y {}) t0.Topics }

theorem AlterReplicaLogDir34.decodes {v : Int16} (hv : 0 ≤ v) (x : Val) (h : Protocol.AlterReplicaLogDir.Valid false v x) (t0 : AlterReplicaLogDir34) :
    Reads (AlterReplicaLogDir34.decode v t0) (Protocol.AlterReplicaLogDir.wire false v x) (AlterReplicaLogDir34.of v x t0) :=
  Reads.congr (((Step.field (set := fun (t : AlterReplicaLogDir34) x => { t with Path := x }) (read_string (Fields.Valid.head (h) hv)))
      |>.andThen (Step.readStructs (get := fun (t : AlterReplicaLogDir34) => t.Topics) (set := fun (t : AlterReplicaLogDir34) x => { t with Topics := x }) (fun y hy => AlterReplicaLogDirTopic34.decodes hv y hy {}) (Fields.Valid.head (Fields.Valid.tail h) hv)) : Step _ _ _) t0)
    (Writes.eq (fs := Protocol.AlterReplicaLogDir) (v := v) (x := x) <| Writes.all hv rfl <| Writes.all hv rfl <| Writes.done).symm rfl

theorem AlterReplicaLogDir34.parses {v : Int16} (hv : 0 ≤ v) (t0 : AlterReplicaLogDir34) :
    Parses (AlterReplicaLogDir34.decode v t0) ((Ty.struct Protocol.AlterReplicaLogDir).parse v) (fun x => AlterReplicaLogDir34.of v x t0) :=
  FParses.parses (fs := Protocol.AlterReplicaLogDir)
    (FParses.field hv (set := fun (t : AlterReplicaLogDir34) x => { t with Path := x }) par_string <|
    FParses.structs hv (get := fun (t : AlterReplicaLogDir34) => t.Topics) (set := fun (t : AlterReplicaLogDir34) x => { t with Topics := x }) (AlterReplicaLogDirTopic34.parses hv {}) <|
    FParses.done)
    (by simp only [AlterReplicaLogDir34.decode, Dec.andThen_nop]) (Fields.distinct_nodup _ (by decide +kernel)) (fun _ _ => rfl) t0

theorem AlterReplicaLogDir34.shown {v : Int16} (hv : 0 ≤ v) (x : Val) (h : Protocol.AlterReplicaLogDir.Typed v x) :
    Protocol.AlterReplicaLogDir.shows v x (AlterReplicaLogDir34.val (AlterReplicaLogDir34.of v x {})) = true :=
  Shows.all hv (show_string (Fields.Typed.head (h) hv)) <|
    Shows.all hv (show_structs (f := AlterReplicaLogDirTopic34.val) (g := fun y => AlterReplicaLogDirTopic34.of v y {}) (fun y hy => AlterReplicaLogDirTopic34.shown hv y hy) (Fields.Typed.head (Fields.Typed.tail h) hv)) <|
    rfl

/-- What `AlterReplicaLogDirsRequest` holds after reading the value `x` into `t0`. -/
def AlterReplicaLogDirsRequest.of (v : Int16) (x : Val) (t0 : AlterReplicaLogDirsRequest) : AlterReplicaLogDirsRequest :=
  { Dirs := (x.get "Dirs").toSliceOr (fun y => AlterReplicaLogDir34.of v y {}) t0.Dirs }

theorem AlterReplicaLogDirsRequest.decodes {v : Int16} (hv : 0 ≤ v) (x : Val) (h : Protocol.AlterReplicaLogDirsRequest.Valid false v x) (t0 : AlterReplicaLogDirsRequest) :
    Reads (AlterReplicaLogDirsRequest.decode v t0) (Protocol.AlterReplicaLogDirsRequest.wire false v x) (AlterReplicaLogDirsRequest.of v x t0) :=
  Reads.congr (((Step.readStructs (get := fun (t : AlterReplicaLogDirsRequest) => t.Dirs) (set := fun (t : AlterReplicaLogDirsRequest) x => { t with Dirs := x }) (fun y hy => AlterReplicaLogDir34.decodes hv y hy {}) (Fields.Valid.head (h) hv)) : Step _ _ _) t0)
    (Writes.eq (fs := Protocol.AlterReplicaLogDirsRequest) (v := v) (x := x) <| Writes.all hv rfl <| Writes.done).symm rfl

theorem AlterReplicaLogDirsRequest.parses {v : Int16} (hv : 0 ≤ v) (t0 : AlterReplicaLogDirsRequest) :
    Parses (AlterReplicaLogDirsRequest.decode v t0) ((Ty.struct Protocol.AlterReplicaLogDirsRequest).parse v) (fun x => AlterReplicaLogDirsRequest.of v x t0) :=
  FParses.parses (fs := Protocol.AlterReplicaLogDirsRequest)
    (FParses.structs hv (get := fun (t : AlterReplicaLogDirsRequest) => t.Dirs) (set := fun (t : AlterReplicaLogDirsRequest) x => { t with Dirs := x }) (AlterReplicaLogDir34.parses hv {}) <|
    FParses.done)
    (by simp only [AlterReplicaLogDirsRequest.decode, Dec.andThen_nop]) (Fields.distinct_nodup _ (by decide +kernel)) (fun _ _ => rfl) t0

theorem AlterReplicaLogDirsRequest.shown {v : Int16} (hv : 0 ≤ v) (x : Val) (h : Protocol.AlterReplicaLogDirsRequest.Typed v x) :
    Protocol.AlterReplicaLogDirsRequest.shows v x (AlterReplicaLogDirsRequest.val (AlterReplicaLogDirsRequest.of v x {})) = true :=
  Shows.all hv (show_structs (f := AlterReplicaLogDir34.val) (g := fun y => AlterReplicaLogDir34.of v y {}) (fun y hy => AlterReplicaLogDir34.shown hv y hy) (Fields.Typed.head (h) hv)) <|
    rfl

end Kafka.Msg
