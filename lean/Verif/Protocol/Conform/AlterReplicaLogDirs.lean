import Verif.Protocol.ParseLemmas
import Verif.Gen.Spec.AlterReplicaLogDirs
/-!
Generated by tools/gen_protocol.py: the AlterReplicaLogDirs messages are written and read as the protocol says.
-/
namespace Kafka.Msg

open Protocol

/-- `AlterReplicaLogDirTopic34` as a value of the protocol. -/
def AlterReplicaLogDirTopic34.val (t : AlterReplicaLogDirTopic34) : Val :=
  .struct [("Name", .str (some t.Name)),
    ("Partitions", ofScalars .int32 t.Partitions)]

theorem AlterReplicaLogDirTopic34.conforms {v : Int16} (hv : 0 ≤ v) (t : AlterReplicaLogDirTopic34) :
    Protocol.AlterReplicaLogDirTopic.wire false v (AlterReplicaLogDirTopic34.val t) = AlterReplicaLogDirTopic34.wire v t :=
  Writes.eq <|
    Writes.all hv (Protocol.wire_string v t.Name) <|
    Writes.all hv (Protocol.wire_int32Array v t.Partitions) <|
    Writes.done

/-- No slice of scalars is nil where the protocol has no null. -/
structure AlterReplicaLogDirTopic34.Full (v : Int16) (t : AlterReplicaLogDirTopic34) : Prop where
  Partitions : t.Partitions.NotNil

theorem AlterReplicaLogDirTopic34.valid {v : Int16} (_hv : 0 ≤ v) (t : AlterReplicaLogDirTopic34) (h : t.Fits v) (hf : t.Full v) :
    Protocol.AlterReplicaLogDirTopic.Valid true v (AlterReplicaLogDirTopic34.val t) :=
  Valids.all (valid_string (h.Name)) <|
    Valids.all (valid_int32Array (h.Partitions) (.inr (hf.Partitions))) <|
    trivial

/-- `AlterReplicaLogDir34` as a value of the protocol. -/
def AlterReplicaLogDir34.val (t : AlterReplicaLogDir34) : Val :=
  .struct [("Path", .str (some t.Path)),
    ("Topics", ofStructs AlterReplicaLogDirTopic34.val t.Topics)]

theorem AlterReplicaLogDir34.conforms {v : Int16} (hv : 0 ≤ v) (t : AlterReplicaLogDir34) :
    Protocol.AlterReplicaLogDir.wire false v (AlterReplicaLogDir34.val t) = AlterReplicaLogDir34.wire v t :=
  Writes.eq <|
    Writes.all hv (Protocol.wire_string v t.Path) <|
    Writes.all hv (Protocol.wire_structs v (AlterReplicaLogDirTopic34.conforms hv) t.Topics) <|
    Writes.done

/-- No slice of scalars is nil where the protocol has no null. -/
structure AlterReplicaLogDir34.Full (v : Int16) (t : AlterReplicaLogDir34) : Prop where
  Topics : FullAll (AlterReplicaLogDirTopic34.Full v) t.Topics

theorem AlterReplicaLogDir34.valid {v : Int16} (hv : 0 ≤ v) (t : AlterReplicaLogDir34) (h : t.Fits v) (hf : t.Full v) :
    Protocol.AlterReplicaLogDir.Valid true v (AlterReplicaLogDir34.val t) :=
  Valids.all (valid_string (h.Path)) <|
    Valids.all (valid_structs (fun y h hf => AlterReplicaLogDirTopic34.valid hv y h hf) (h.Topics) (hf.Topics)) <|
    trivial

/-- `AlterReplicaLogDirsRequest` as a value of the protocol. -/
def AlterReplicaLogDirsRequest.val (t : AlterReplicaLogDirsRequest) : Val :=
  .struct [("Dirs", ofStructs AlterReplicaLogDir34.val t.Dirs)]

theorem AlterReplicaLogDirsRequest.conforms {v : Int16} (hv : 0 ≤ v) (t : AlterReplicaLogDirsRequest) :
    Protocol.AlterReplicaLogDirsRequest.wire false v (AlterReplicaLogDirsRequest.val t) = AlterReplicaLogDirsRequest.wire v t :=
  Writes.eq <|
    Writes.all hv (Protocol.wire_structs v (AlterReplicaLogDir34.conforms hv) t.Dirs) <|
    Writes.done

/-- No slice of scalars is nil where the protocol has no null. -/
structure AlterReplicaLogDirsRequest.Full (v : Int16) (t : AlterReplicaLogDirsRequest) : Prop where
  Dirs : FullAll (AlterReplicaLogDir34.Full v) t.Dirs

theorem AlterReplicaLogDirsRequest.valid {v : Int16} (hv : 0 ≤ v) (t : AlterReplicaLogDirsRequest) (h : t.Fits v) (hf : t.Full v) :
    Protocol.AlterReplicaLogDirsRequest.Valid true v (AlterReplicaLogDirsRequest.val t) :=
  Valids.all (valid_structs (fun y h hf => AlterReplicaLogDir34.valid hv y h hf) (h.Dirs) (hf.Dirs)) <|
    trivial

/-- `AlterReplicaLogDirPartitionResult34` as a value of the protocol. -/
def AlterReplicaLogDirPartitionResult34.val (t : AlterReplicaLogDirPartitionResult34) : Val :=
  .struct [("PartitionIndex", .int32 t.PartitionIndex),
    ("ErrorCode", .int16 t.ErrorCode)]

theorem AlterReplicaLogDirPartitionResult34.conforms {v : Int16} (hv : 0 ≤ v) (t : AlterReplicaLogDirPartitionResult34) :
    Protocol.AlterReplicaLogDirPartitionResult.wire false v (AlterReplicaLogDirPartitionResult34.val t) = AlterReplicaLogDirPartitionResult34.wire v t :=
  Writes.eq <|
    Writes.all hv (Protocol.wire_int32 v t.PartitionIndex) <|
    Writes.all hv (Protocol.wire_int16 v t.ErrorCode) <|
    Writes.done

/-- There is nothing that may not be nil. -/
def AlterReplicaLogDirPartitionResult34.Full (_v : Int16) (_t : AlterReplicaLogDirPartitionResult34) : Prop := True

theorem AlterReplicaLogDirPartitionResult34.valid {v : Int16} (_hv : 0 ≤ v) (t : AlterReplicaLogDirPartitionResult34) (_h : t.Fits v) (_hf : t.Full v) :
    Protocol.AlterReplicaLogDirPartitionResult.Valid true v (AlterReplicaLogDirPartitionResult34.val t) :=
  Valids.all trivial <|
    Valids.all trivial <|
    trivial

/-- What `AlterReplicaLogDirPartitionResult34` holds after reading the value `x` into `t0`. -/
def AlterReplicaLogDirPartitionResult34.of (_v : Int16) (x : Val) (_t0 : AlterReplicaLogDirPartitionResult34) : AlterReplicaLogDirPartitionResult34 :=
  { PartitionIndex := (x.get "PartitionIndex").toInt32,
    ErrorCode := (x.get "ErrorCode").toInt16 }

theorem AlterReplicaLogDirPartitionResult34.decodes {v : Int16} (hv : 0 ≤ v) (x : Val) (h : Protocol.AlterReplicaLogDirPartitionResult.Valid false v x) (t0 : AlterReplicaLogDirPartitionResult34) :
    Reads (AlterReplicaLogDirPartitionResult34.decode v t0) (Protocol.AlterReplicaLogDirPartitionResult.wire false v x) (AlterReplicaLogDirPartitionResult34.of v x t0) :=
  Reads.congr (((Step.field (set := fun (t : AlterReplicaLogDirPartitionResult34) x => { t with PartitionIndex := x }) (read_int32 (Fields.Valid.head (h) hv)))
      |>.andThen (Step.field (set := fun (t : AlterReplicaLogDirPartitionResult34) x => { t with ErrorCode := x }) (read_int16 (Fields.Valid.head (Fields.Valid.tail h) hv))) : Step _ _ _) t0)
    (Writes.eq (fs := Protocol.AlterReplicaLogDirPartitionResult) (v := v) (x := x) <| Writes.all hv rfl <| Writes.all hv rfl <| Writes.done).symm rfl

theorem AlterReplicaLogDirPartitionResult34.parses {v : Int16} (hv : 0 ≤ v) (t0 : AlterReplicaLogDirPartitionResult34) :
    Parses (AlterReplicaLogDirPartitionResult34.decode v t0) ((Ty.struct Protocol.AlterReplicaLogDirPartitionResult).parse v) (fun x => AlterReplicaLogDirPartitionResult34.of v x t0) :=
  FParses.parses (fs := Protocol.AlterReplicaLogDirPartitionResult)
    (FParses.field hv (set := fun (t : AlterReplicaLogDirPartitionResult34) x => { t with PartitionIndex := x }) par_int32 <|
    FParses.field hv (set := fun (t : AlterReplicaLogDirPartitionResult34) x => { t with ErrorCode := x }) par_int16 <|
    FParses.done)
    (by simp only [AlterReplicaLogDirPartitionResult34.decode, Dec.andThen_nop]) (Fields.distinct_nodup _ (by decide +kernel)) (fun _ _ => rfl) t0

theorem AlterReplicaLogDirPartitionResult34.shown {v : Int16} (hv : 0 ≤ v) (x : Val) (h : Protocol.AlterReplicaLogDirPartitionResult.Typed v x) :
    Protocol.AlterReplicaLogDirPartitionResult.shows v x (AlterReplicaLogDirPartitionResult34.val (AlterReplicaLogDirPartitionResult34.of v x {})) = true :=
  Shows.all hv (show_int32 (Fields.Typed.head (h) hv)) <|
    Shows.all hv (show_int16 (Fields.Typed.head (Fields.Typed.tail h) hv)) <|
    rfl

/-- `AlterReplicaLogDirTopicResult34` as a value of the protocol. -/
def AlterReplicaLogDirTopicResult34.val (t : AlterReplicaLogDirTopicResult34) : Val :=
  .struct [("TopicName", .str (some t.TopicName)),
    ("Partitions", ofStructs AlterReplicaLogDirPartitionResult34.val t.Partitions)]

theorem AlterReplicaLogDirTopicResult34.conforms {v : Int16} (hv : 0 ≤ v) (t : AlterReplicaLogDirTopicResult34) :
    Protocol.AlterReplicaLogDirTopicResult.wire false v (AlterReplicaLogDirTopicResult34.val t) = AlterReplicaLogDirTopicResult34.wire v t :=
  Writes.eq <|
    Writes.all hv (Protocol.wire_string v t.TopicName) <|
    Writes.all hv (Protocol.wire_structs v (AlterReplicaLogDirPartitionResult34.conforms hv) t.Partitions) <|
    Writes.done

/-- There is nothing that may not be nil. -/
def AlterReplicaLogDirTopicResult34.Full (_v : Int16) (_t : AlterReplicaLogDirTopicResult34) : Prop := True

theorem AlterReplicaLogDirTopicResult34.valid {v : Int16} (hv : 0 ≤ v) (t : AlterReplicaLogDirTopicResult34) (h : t.Fits v) (_hf : t.Full v) :
    Protocol.AlterReplicaLogDirTopicResult.Valid true v (AlterReplicaLogDirTopicResult34.val t) :=
  Valids.all (valid_string (h.TopicName)) <|
    Valids.all (valid_structs (fun y h hf => AlterReplicaLogDirPartitionResult34.valid hv y h hf) (h.Partitions) (fun _ _ => trivial)) <|
    trivial

/-- What `AlterReplicaLogDirTopicResult34` holds after reading the value `x` into `t0`. -/
def AlterReplicaLogDirTopicResult34.of (v : Int16) (x : Val) (t0 : AlterReplicaLogDirTopicResult34) : AlterReplicaLogDirTopicResult34 :=
  { TopicName := (x.get "TopicName").toStr,
    Partitions := (x.get "Partitions").toSliceOr (fun y => AlterReplicaLogDirPartitionResult34.of v y {}) t0.Partitions }

theorem AlterReplicaLogDirTopicResult34.decodes {v : Int16} (hv : 0 ≤ v) (x : Val) (h : Protocol.AlterReplicaLogDirTopicResult.Valid false v x) (t0 : AlterReplicaLogDirTopicResult34) :
    Reads (AlterReplicaLogDirTopicResult34.decode v t0) (Protocol.AlterReplicaLogDirTopicResult.wire false v x) (AlterReplicaLogDirTopicResult34.of v x t0) :=
  Reads.congr (((Step.field (set := fun (t : AlterReplicaLogDirTopicResult34) x => { t with TopicName := x }) (read_string (Fields.Valid.head (h) hv)))
      |>.andThen (Step.readStructs (get := fun (t : AlterReplicaLogDirTopicResult34) => t.Partitions) (set := fun (t : AlterReplicaLogDirTopicResult34) x => { t with Partitions := x }) (fun y hy => AlterReplicaLogDirPartitionResult34.decodes hv y hy {}) (Fields.Valid.head (Fields.Valid.tail h) hv)) : Step _ _ _) t0)
    (Writes.eq (fs := Protocol.AlterReplicaLogDirTopicResult) (v := v) (x := x) <| Writes.all hv rfl <| Writes.all hv rfl <| Writes.done).symm rfl

theorem AlterReplicaLogDirTopicResult34.parses {v : Int16} (hv : 0 ≤ v) (t0 : AlterReplicaLogDirTopicResult34) :
    Parses (AlterReplicaLogDirTopicResult34.decode v t0) ((Ty.struct Protocol.AlterReplicaLogDirTopicResult).parse v) (fun x => AlterReplicaLogDirTopicResult34.of v x t0) :=
  FParses.parses (fs := Protocol.AlterReplicaLogDirTopicResult)
    (FParses.field hv (set := fun (t : AlterReplicaLogDirTopicResult34) x => { t with TopicName := x }) par_string <|
    FParses.structs hv (get := fun (t : AlterReplicaLogDirTopicResult34) => t.Partitions) (set := fun (t : AlterReplicaLogDirTopicResult34) x => { t with Partitions := x }) (AlterReplicaLogDirPartitionResult34.parses hv {}) <|
    FParses.done)
    (by simp only [AlterReplicaLogDirTopicResult34.decode, Dec.andThen_nop]) (Fields.distinct_nodup _ (by decide +kernel)) (fun _ _ => rfl) t0

theorem AlterReplicaLogDirTopicResult34.shown {v : Int16} (hv : 0 ≤ v) (x : Val) (h : Protocol.AlterReplicaLogDirTopicResult.Typed v x) :
    Protocol.AlterReplicaLogDirTopicResult.shows v x (AlterReplicaLogDirTopicResult34.val (AlterReplicaLogDirTopicResult34.of v x {})) = true :=
  Shows.all hv (show_string (Fields.Typed.head (h) hv)) <|
    Shows.all hv (show_structs (f := AlterReplicaLogDirPartitionResult34.val) (g := fun y => AlterReplicaLogDirPartitionResult34.of v y {}) (fun y hy => AlterReplicaLogDirPartitionResult34.shown hv y hy) (Fields.Typed.head (Fields.Typed.tail h) hv)) <|
    rfl

/-- `AlterReplicaLogDirsResponse` as a value of the protocol. -/
def AlterReplicaLogDirsResponse.val (t : AlterReplicaLogDirsResponse) : Val :=
  .struct [("ThrottleTimeMs", .int32 t.ThrottleTimeMs),
    ("Results", ofStructs AlterReplicaLogDirTopicResult34.val t.Results)]

theorem AlterReplicaLogDirsResponse.conforms {v : Int16} (hv : 0 ≤ v) (t : AlterReplicaLogDirsResponse) :
    Protocol.AlterReplicaLogDirsResponse.wire false v (AlterReplicaLogDirsResponse.val t) = AlterReplicaLogDirsResponse.wire v t :=
  Writes.eq <|
    Writes.all hv (Protocol.wire_int32 v t.ThrottleTimeMs) <|
    Writes.all hv (Protocol.wire_structs v (AlterReplicaLogDirTopicResult34.conforms hv) t.Results) <|
    Writes.done

/-- There is nothing that may not be nil. -/
def AlterReplicaLogDirsResponse.Full (_v : Int16) (_t : AlterReplicaLogDirsResponse) : Prop := True

theorem AlterReplicaLogDirsResponse.valid {v : Int16} (hv : 0 ≤ v) (t : AlterReplicaLogDirsResponse) (h : t.Fits v) (_hf : t.Full v) :
    Protocol.AlterReplicaLogDirsResponse.Valid true v (AlterReplicaLogDirsResponse.val t) :=
  Valids.all trivial <|
    Valids.all (valid_structs (fun y h hf => AlterReplicaLogDirTopicResult34.valid hv y h hf) (h.Results) (fun _ _ => trivial)) <|
    trivial

/-- What `AlterReplicaLogDirsResponse` holds after reading the value `x` into `t0`. -/
def AlterReplicaLogDirsResponse.of (v : Int16) (x : Val) (t0 : AlterReplicaLogDirsResponse) : AlterReplicaLogDirsResponse :=
  { ThrottleTimeMs := (x.get "ThrottleTimeMs").toInt32,
    Results := (x.get "Results").toSliceOr (fun y => AlterReplicaLogDirTopicResult34.of v y {}) t0.Results }

theorem AlterReplicaLogDirsResponse.decodes {v : Int16} (hv : 0 ≤ v) (x : Val) (h : Protocol.AlterReplicaLogDirsResponse.Valid false v x) (t0 : AlterReplicaLogDirsResponse) :
    Reads (AlterReplicaLogDirsResponse.decode v t0) (Protocol.AlterReplicaLogDirsResponse.wire false v x) (AlterReplicaLogDirsResponse.of v x t0) :=
  Reads.congr (((Step.field (set := fun (t : AlterReplicaLogDirsResponse) x => { t with ThrottleTimeMs := x }) (read_int32 (Fields.Valid.head (h) hv)))
      |>.andThen (Step.readStructs (get := fun (t : AlterReplicaLogDirsResponse) => t.Results) (set := fun (t : AlterReplicaLogDirsResponse) x => { t with Results := x }) (fun y hy => AlterReplicaLogDirTopicResult34.decodes hv y hy {}) (Fields.Valid.head (Fields.Valid.tail h) hv)) : Step _ _ _) t0)
    (Writes.eq (fs := Protocol.AlterReplicaLogDirsResponse) (v := v) (x := x) <| Writes.all hv rfl <| Writes.all hv rfl <| Writes.done).symm rfl

theorem AlterReplicaLogDirsResponse.parses {v : Int16} (hv : 0 ≤ v) (t0 : AlterReplicaLogDirsResponse) :
    Parses (AlterReplicaLogDirsResponse.decode v t0) ((Ty.struct Protocol.AlterReplicaLogDirsResponse).parse v) (fun x => AlterReplicaLogDirsResponse.of v x t0) :=
  FParses.parses (fs := Protocol.AlterReplicaLogDirsResponse)
    (FParses.field hv (set := fun (t : AlterReplicaLogDirsResponse) x => { t with ThrottleTimeMs := x }) par_int32 <|
    FParses.structs hv (get := fun (t : AlterReplicaLogDirsResponse) => t.Results) (set := fun (t : AlterReplicaLogDirsResponse) x => { t with Results := x }) (AlterReplicaLogDirTopicResult34.parses hv {}) <|
    FParses.done)
    (by simp only [AlterReplicaLogDirsResponse.decode, Dec.andThen_nop]) (Fields.distinct_nodup _ (by decide +kernel)) (fun _ _ => rfl) t0

theorem AlterReplicaLogDirsResponse.shown {v : Int16} (hv : 0 ≤ v) (x : Val) (h : Protocol.AlterReplicaLogDirsResponse.Typed v x) :
    Protocol.AlterReplicaLogDirsResponse.shows v x (AlterReplicaLogDirsResponse.val (AlterReplicaLogDirsResponse.of v x {})) = true :=
  Shows.all hv (show_int32 (Fields.Typed.head (h) hv)) <|
    Shows.all hv (show_structs (f := AlterReplicaLogDirTopicResult34.val) (g := fun y => AlterReplicaLogDirTopicResult34.of v y {}) (fun y hy => AlterReplicaLogDirTopicResult34.shown hv y hy) (Fields.Typed.head (Fields.Typed.tail h) hv)) <|
    rfl

end Kafka.Msg
