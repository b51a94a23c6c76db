import Verif.Protocol.ParseLemmas
import Verif.Gen.Spec.DescribeLogDirs
/-!
Generated by tools/gen_protocol.py: the DescribeLogDirs messages are written and read as the protocol says.
-/
namespace Kafka.Msg

open Protocol

/-- `DescribableLogDirTopic35` as a value of the protocol. -/
def DescribableLogDirTopic35.val (t : DescribableLogDirTopic35) : Val :=
  .struct [("Topic", .str (some t.Topic)),
    ("PartitionIndex", ofScalars .int32 t.PartitionIndex)]

theorem DescribableLogDirTopic35.conforms {v : Int16} (hv : 0 ≤ v) (t : DescribableLogDirTopic35) :
    Protocol.DescribableLogDirTopic.wire false v (DescribableLogDirTopic35.val t) = DescribableLogDirTopic35.wire v t :=
  Writes.eq <|
    Writes.all hv (Protocol.wire_string v t.Topic) <|
    Writes.all hv (Protocol.wire_int32Array v t.PartitionIndex) <|
    Writes.done

/-- No slice of scalars is nil where the protocol has no null. -/
structure DescribableLogDirTopic35.Full (v : Int16) (t : DescribableLogDirTopic35) : Prop where
  PartitionIndex : t.PartitionIndex.NotNil

theorem DescribableLogDirTopic35.valid {v : Int16} (_hv : 0 ≤ v) (t : DescribableLogDirTopic35) (h : t.Fits v) (hf : t.Full v) :
    Protocol.DescribableLogDirTopic.Valid true v (DescribableLogDirTopic35.val t) :=
  Valids.all (valid_string (h.Topic)) <|
    Valids.all (valid_int32Array (h.PartitionIndex) (.inr (hf.PartitionIndex))) <|
    trivial

/-- `DescribeLogDirsRequest` as a value of the protocol. -/
def DescribeLogDirsRequest.val (t : DescribeLogDirsRequest) : Val :=
  .struct [("Topics", ofStructs DescribableLogDirTopic35.val t.Topics)]

theorem DescribeLogDirsRequest.conforms {v : Int16} (hv : 0 ≤ v) (t : DescribeLogDirsRequest) :
    Protocol.DescribeLogDirsRequest.wire false v (DescribeLogDirsRequest.val t) = DescribeLogDirsRequest.wire v t :=
  Writes.eq <|
    Writes.all hv (Protocol.wire_structs v (DescribableLogDirTopic35.conforms hv) t.Topics) <|
    Writes.done

/-- No slice of scalars is nil where the protocol has no null. -/
structure DescribeLogDirsRequest.Full (v : Int16) (t : DescribeLogDirsRequest) : Prop where
  Topics : FullAll (DescribableLogDirTopic35.Full v) t.Topics

theorem DescribeLogDirsRequest.valid {v : Int16} (hv : 0 ≤ v) (t : DescribeLogDirsRequest) (h : t.Fits v) (hf : t.Full v) :
    Protocol.DescribeLogDirsRequest.Valid true v (DescribeLogDirsRequest.val t) :=
  Valids.all (valid_structs (fun y h hf => DescribableLogDirTopic35.valid hv y h hf) (h.Topics) (hf.Topics)) <|
    trivial

/-- `DescribeLogDirsPartition35` as a value of the protocol. -/
def DescribeLogDirsPartition35.val (t : DescribeLogDirsPartition35) : Val :=
  .struct [("PartitionIndex", .int32 t.PartitionIndex),
    ("PartitionSize", .int64 t.PartitionSize),
    ("OffsetLag", .int64 t.OffsetLag),
    ("IsFutureKey", .bool t.IsFutureKey)]

theorem DescribeLogDirsPartition35.conforms {v : Int16} (hv : 0 ≤ v) (t : DescribeLogDirsPartition35) :
    Protocol.DescribeLogDirsPartition.wire false v (DescribeLogDirsPartition35.val t) = DescribeLogDirsPartition35.wire v t :=
  Writes.eq <|
    Writes.all hv (Protocol.wire_int32 v t.PartitionIndex) <|
    Writes.all hv (Protocol.wire_int64 v t.PartitionSize) <|
    Writes.all hv (Protocol.wire_int64 v t.OffsetLag) <|
    Writes.all hv (Protocol.wire_bool v t.IsFutureKey) <|
    Writes.done

/-- There is nothing that may not be nil. -/
def DescribeLogDirsPartition35.Full (_v : Int16) (_t : DescribeLogDirsPartition35) : Prop := True

theorem DescribeLogDirsPartition35.valid {v : Int16} (_hv : 0 ≤ v) (t : DescribeLogDirsPartition35) (_h : t.Fits v) (_hf : t.Full v) :
    Protocol.DescribeLogDirsPartition.Valid true v (DescribeLogDirsPartition35.val t) :=
  Valids.all trivial <|
    Valids.all trivial <|
    Valids.all trivial <|
    Valids.all trivial <|
    trivial

/-- What `DescribeLogDirsPartition35` holds after reading the value `x` into `t0`. -/
def DescribeLogDirsPartition35.of (_v : Int16) (x : Val) (_t0 : DescribeLogDirsPartition35) : DescribeLogDirsPartition35 :=
  { PartitionIndex := (x.get "PartitionIndex").toInt32,
    PartitionSize := (x.get "PartitionSize").toInt64,
    OffsetLag := (x.get "OffsetLag").toInt64,
    IsFutureKey := (x.get "IsFutureKey").toBool }

theorem DescribeLogDirsPartition35.decodes {v : Int16} (hv : 0 ≤ v) (x : Val) (h : Protocol.DescribeLogDirsPartition.Valid false v x) (t0 : DescribeLogDirsPartition35) :
    Reads (DescribeLogDirsPartition35.decode v t0) (Protocol.DescribeLogDirsPartition.wire false v x) (DescribeLogDirsPartition35.of v x t0) :=
  Reads.congr (((Step.field (set := fun (t : DescribeLogDirsPartition35) x => { t with PartitionIndex := x }) (read_int32 (Fields.Valid.head (h) hv)))
      |>.andThen (Step.field (set := fun (t : DescribeLogDirsPartition35) x => { t with PartitionSize := x }) (read_int64 (Fields.Valid.head (Fields.Valid.tail h) hv)))
      |>.andThen (Step.field (set := fun (t : DescribeLogDirsPartition35) x => { t with OffsetLag := x }) (read_int64 (Fields.Valid.head (Fields.Valid.tail (Fields.Valid.tail h)) hv)))
      |>.andThen (Step.field (set := fun (t : DescribeLogDirsPartition35) x => { t with IsFutureKey := x }) (read_bool (Fields.Valid.head (Fields.Valid.tail (Fields.Valid.tail (Fields.Valid.tail h))) hv))) : Step _ _ _) t0)
    (Writes.eq (fs := Protocol.DescribeLogDirsPartition) (v := v) (x := x) <| Writes.all hv rfl <| Writes.all hv rfl <| Writes.all hv rfl <| Writes.all hv rfl <| Writes.done).symm rfl

theorem DescribeLogDirsPartition35.parses {v : Int16} (hv : 0 ≤ v) (t0 : DescribeLogDirsPartition35) :
    Parses (DescribeLogDirsPartition35.decode v t0) ((Ty.struct Protocol.DescribeLogDirsPartition).parse v) (fun x => DescribeLogDirsPartition35.of v x t0) :=
  FParses.parses (fs := Protocol.DescribeLogDirsPartition)
    (FParses.field hv (set := fun (t : DescribeLogDirsPartition35) x => { t with PartitionIndex := x }) par_int32 <|
    FParses.field hv (set := fun (t : DescribeLogDirsPartition35) x => { t with PartitionSize := x }) par_int64 <|
    FParses.field hv (set := fun (t : DescribeLogDirsPartition35) x => { t with OffsetLag := x }) par_int64 <|
    FParses.field hv (set := fun (t : DescribeLogDirsPartition35) x => { t with IsFutureKey := x }) par_bool <|
    FParses.done)
    (by simp only [DescribeLogDirsPartition35.decode, Dec.andThen_assoc, Dec.andThen_nop]) (Fields.distinct_nodup _ (by decide +kernel)) (fun _ _ => rfl) t0

theorem DescribeLogDirsPartition35.shown {v : Int16} (hv : 0 ≤ v) (x : Val) (h : Protocol.DescribeLogDirsPartition.Typed v x) :
    Protocol.DescribeLogDirsPartition.shows v x (DescribeLogDirsPartition35.val (DescribeLogDirsPartition35.of v x {})) = true :=
  Shows.all hv (show_int32 (Fields.Typed.head (h) hv)) <|
    Shows.all hv (show_int64 (Fields.Typed.head (Fields.Typed.tail h) hv)) <|
    Shows.all hv (show_int64 (Fields.Typed.head (Fields.Typed.tail (Fields.Typed.tail h)) hv)) <|
    Shows.all hv (show_bool (Fields.Typed.head (Fields.Typed.tail (Fields.Typed.tail (Fields.Typed.tail h))) hv)) <|
    rfl

/-- `DescribeLogDirsTopic35` as a value of the protocol. -/
def DescribeLogDirsTopic35.val (t : DescribeLogDirsTopic35) : Val :=
  .struct [("Name", .str (some t.Name)),
    ("Partitions", ofStructs DescribeLogDirsPartition35.val t.Partitions)]

theorem DescribeLogDirsTopic35.conforms {v : Int16} (hv : 0 ≤ v) (t : DescribeLogDirsTopic35) :
    Protocol.DescribeLogDirsTopic.wire false v (DescribeLogDirsTopic35.val t) = DescribeLogDirsTopic35.wire v t :=
  Writes.eq <|
    Writes.all hv (Protocol.wire_string v t.Name) <|
    Writes.all hv (Protocol.wire_structs v (DescribeLogDirsPartition35.conforms hv) t.Partitions) <|
    Writes.done

/-- There is nothing that may not be nil. -/
def DescribeLogDirsTopic35.Full (_v : Int16) (_t : DescribeLogDirsTopic35) : Prop := True

theorem DescribeLogDirsTopic35.valid {v : Int16} (hv : 0 ≤ v) (t : DescribeLogDirsTopic35) (h : t.Fits v) (_hf : t.Full v) :
    Protocol.DescribeLogDirsTopic.Valid true v (DescribeLogDirsTopic35.val t) :=
  Valids.all (valid_string (h.Name)) <|
    Valids.all (valid_structs (fun y h hf => DescribeLogDirsPartition35.valid hv y h hf) (h.Partitions) (fun _ _ => trivial)) <|
    trivial

/-- What `DescribeLogDirsTopic35` holds after reading the value `x` into `t0`. -/
def DescribeLogDirsTopic35.of (v : Int16) (x : Val) (t0 : DescribeLogDirsTopic35) : DescribeLogDirsTopic35 :=
  { Name := (x.get "Name").toStr,
    Partitions := (x.get "Partitions").toSliceOr (fun y => DescribeLogDirsPartition35.of v y {}) t0.Partitions }

theorem DescribeLogDirsTopic35.decodes {v : Int16} (hv : 0 ≤ v) (x : Val) (h : Protocol.DescribeLogDirsTopic.Valid false v x) (t0 : DescribeLogDirsTopic35) :
    Reads (DescribeLogDirsTopic35.decode v t0) (Protocol.DescribeLogDirsTopic.wire false v x) (DescribeLogDirsTopic35.of v x t0) :=
  Reads.congr (((Step.field (set := fun (t : DescribeLogDirsTopic35) x => { t with Name := x }) (read_string (Fields.Valid.head (h) hv)))
      |>.andThen (Step.readStructs (get := fun (t : DescribeLogDirsTopic35) => t.Partitions) (set := fun (t : DescribeLogDirsTopic35) x => { t with Partitions := x }) (fun y hy => DescribeLogDirsPartition35.decodes hv y hy {}) (Fields.Valid.head (Fields.Valid.tail h) hv)) : Step _ _ _) t0)
    (Writes.eq (fs := Protocol.DescribeLogDirsTopic) (v := v) (x := x) <| Writes.all hv rfl <| Writes.all hv rfl <| Writes.done).symm rfl

theorem DescribeLogDirsTopic35.parses {v : Int16} (hv : 0 ≤ v) (t0 : DescribeLogDirsTopic35) :
    Parses (DescribeLogDirsTopic35.decode v t0) ((Ty.struct Protocol.DescribeLogDirsTopic).parse v) (fun x => DescribeLogDirsTopic35.of v x t0) :=
  FParses.parses (fs := Protocol.DescribeLogDirsTopic)
    (FParses.field hv (set := fun (t : DescribeLogDirsTopic35) x => { t with Name := x }) par_string <|
    FParses.structs hv (get := fun (t : DescribeLogDirsTopic35) => t.Partitions) (set := fun (t : DescribeLogDirsTopic35) x => { t with Partitions := x }) (DescribeLogDirsPartition35.parses hv {}) <|
    FParses.done)
    (by simp only [DescribeLogDirsTopic35.decode, Dec.andThen_nop]) (Fields.distinct_nodup _ (by decide +kernel)) (fun _ _ => rfl) t0

theorem DescribeLogDirsTopic35.shown {v : Int16} (hv : 0 ≤ v) (x : Val) (h : Protocol.DescribeLogDirsTopic.Typed v x) :
    Protocol.DescribeLogDirsTopic.shows v x (DescribeLogDirsTopic35.val (DescribeLogDirsTopic35.of v x {})) = true :=
  Shows.all hv (show_string (Fields.Typed.head (h) hv)) <|
    Shows.all hv (show_structs (f := DescribeLogDirsPartition35.val) (g := fun y => DescribeLogDirsPartition35.of v y {}) (fun y hy => DescribeLogDirsPartition35.shown hv y hy) (Fields.Typed.head (Fields.Typed.tail h) hv)) <|
    rfl

/-- `DescribeLogDirsResult35` as a value of the protocol. -/
def DescribeLogDirsResult35.val (t : DescribeLogDirsResult35) : Val :=
  .struct [("ErrorCode", .int16 t.ErrorCode),
    ("LogDir", .str (some t.LogDir)),
    ("Topics", ofStructs DescribeLogDirsTopic35.val t.Topics)]

theorem DescribeLogDirsResult35.conforms {v : Int16} (hv : 0 ≤ v) (t : DescribeLogDirsResult35) :
    Protocol.DescribeLogDirsResult.wire false v (DescribeLogDirsResult35.val t) = DescribeLogDirsResult35.wire v t :=
  Writes.eq <|
    Writes.all hv (Protocol.wire_int16 v t.ErrorCode) <|
    Writes.all hv (Protocol.wire_string v t.LogDir) <|
    Writes.all hv (Protocol.wire_structs v (DescribeLogDirsTopic35.conforms hv) t.Topics) <|
    Writes.done

/-- There is nothing that may not be nil. -/
def DescribeLogDirsResult35.Full (_v : Int16) (_t : DescribeLogDirsResult35) : Prop := True

theorem DescribeLogDirsResult35.valid {v : Int16} (hv : 0 ≤ v) (t : DescribeLogDirsResult35) (h : t.Fits v) (_hf : t.Full v) :
    Protocol.DescribeLogDirsResult.Valid true v (DescribeLogDirsResult35.val t) :=
  Valids.all trivial <|
    Valids.all (valid_string (h.LogDir)) <|
    Valids.all (valid_structs (fun y h hf => DescribeLogDirsTopic35.valid hv y h hf) (h.Topics) (fun _ _ => trivial)) <|
    trivial

/-- What `DescribeLogDirsResult35` holds after reading the value `x` into `t0`. -/
def DescribeLogDirsResult35.of (v : Int16) (x : Val) (t0 : DescribeLogDirsResult35) : DescribeLogDirsResult35 :=
  { ErrorCode := (x.get "ErrorCode").toInt16,
    LogDir := (x.get "LogDir").toStr,
    Topics := (x.get "Topics").toSliceOr (fun y => DescribeLogDirsTopic35.of v y {}) t0.Topics }

theorem DescribeLogDirsResult35.decodes {v : Int16} (hv : 0 ≤ v) (x : Val) (h : Protocol.DescribeLogDirsResult.Valid false v x) (t0 : DescribeLogDirsResult35) :
    Reads (DescribeLogDirsResult35.decode v t0) (Protocol.DescribeLogDirsResult.wire false v x) (DescribeLogDirsResult35.of v x t0) :=
  Reads.congr (((Step.field (set := fun (t : DescribeLogDirsResult35) x => { t with ErrorCode := x }) (read_int16 (Fields.Valid.head (h) hv)))
      |>.andThen (Step.field (set := fun (t : DescribeLogDirsResult35) x => { t with LogDir := x }) (read_string (Fields.Valid.head (Fields.Valid.tail h) hv)))
      |>.andThen (Step.readStructs (get := fun (t : DescribeLogDirsResult35) => t.Topics) (set := fun (t : DescribeLogDirsResult35) x => { t with Topics := x }) (fun y hy => DescribeLogDirsTopic35.decodes hv y hy {}) (Fields.Valid.head (Fields.Valid.tail (Fields.Valid.tail h)) hv)) : Step _ _ _) t0)
    (Writes.eq (fs := Protocol.DescribeLogDirsResult) (v := v) (x := x) <| Writes.all hv rfl <| Writes.all hv rfl <| Writes.all hv rfl <| Writes.done).symm rfl

theorem DescribeLogDirsResult35.parses {v : Int16} (hv : 0 ≤ v) (t0 : DescribeLogDirsResult35) :
    Parses (DescribeLogDirsResult35.decode v t0) ((Ty.struct Protocol.DescribeLogDirsResult).parse v) (fun x => DescribeLogDirsResult35.of v x t0) :=
  FParses.parses (fs := Protocol.DescribeLogDirsResult)
    (FParses.field hv (set := fun (t : DescribeLogDirsResult35) x => { t with ErrorCode := x }) par_int16 <|
    FParses.field hv (set := fun (t : DescribeLogDirsResult35) x => { t with LogDir := x }) par_string <|
    FParses.structs hv (get := fun (t : DescribeLogDirsResult35) => t.Topics) (set := fun (t : DescribeLogDirsResult35) x => { t with Topics := x }) (DescribeLogDirsTopic35.parses hv {}) <|
    FParses.done)
    (by simp only [DescribeLogDirsResult35.decode, Dec.andThen_assoc, Dec.andThen_nop]) (Fields.distinct_nodup _ (by decide +kernel)) (fun _ _ => rfl) t0

theorem DescribeLogDirsResult35.shown {v : Int16} (hv : 0 ≤ v) (x : Val) (h : Protocol.DescribeLogDirsResult.Typed v x) :
    Protocol.DescribeLogDirsResult.shows v x (DescribeLogDirsResult35.val (DescribeLogDirsResult35.of v x {})) = true :=
  Shows.all hv (show_int16 (Fields.Typed.head (h) hv)) <|
    Shows.all hv (show_string (Fields.Typed.head (Fields.Typed.tail h) hv)) <|
    Shows.all hv (show_structs (f := DescribeLogDirsTopic35.val) (g := fun y => DescribeLogDirsTopic35.of v y {}) (fun y hy => DescribeLogDirsTopic35.shown hv y hy) (Fields.Typed.head (Fields.Typed.tail (Fields.Typed.tail h)) hv)) <|
    rfl

/-- `DescribeLogDirsResponse` as a value of the protocol. -/
def DescribeLogDirsResponse.val (t : DescribeLogDirsResponse) : Val :=
  .struct [("ThrottleTimeMs", .int32 t.ThrottleTimeMs),
    ("Results", ofStructs DescribeLogDirsResult35.val t.Results)]

theorem DescribeLogDirsResponse.conforms {v : Int16} (hv : 0 ≤ v) (t : DescribeLogDirsResponse) :
    Protocol.DescribeLogDirsResponse.wire false v (DescribeLogDirsResponse.val t) = DescribeLogDirsResponse.wire v t :=
  Writes.eq <|
    Writes.all hv (Protocol.wire_int32 v t.ThrottleTimeMs) <|
    Writes.all hv (Protocol.wire_structs v (DescribeLogDirsResult35.conforms hv) t.Results) <|
    Writes.done

/-- There is nothing that may not be nil. -/
def DescribeLogDirsResponse.Full (_v : Int16) (_t : DescribeLogDirsResponse) : Prop := True

theorem DescribeLogDirsResponse.valid {v : Int16} (hv : 0 ≤ v) (t : DescribeLogDirsResponse) (h : t.Fits v) (_hf : t.Full v) :
    Protocol.DescribeLogDirsResponse.Valid true v (DescribeLogDirsResponse.val t) :=
  Valids.all trivial <|
    Valids.all (valid_structs (fun y h hf => DescribeLogDirsResult35.valid hv y h hf) (h.Results) (fun _ _ => trivial)) <|
    trivial

/-- What `DescribeLogDirsResponse` holds after reading the value `x` into `t0`. -/
def DescribeLogDirsResponse.of (v : Int16) (x : Val) (t0 : DescribeLogDirsResponse) : DescribeLogDirsResponse :=
  { ThrottleTimeMs := (x.get "ThrottleTimeMs").toInt32,
    Results := (x.get "Results").toSliceOr (fun y => DescribeLogDirsResult35.of v y {}) t0.Results }

theorem DescribeLogDirsResponse.decodes {v : Int16} (hv : 0 ≤ v) (x : Val) (h : Protocol.DescribeLogDirsResponse.Valid false v x) (t0 : DescribeLogDirsResponse) :
    Reads (DescribeLogDirsResponse.decode v t0) (Protocol.DescribeLogDirsResponse.wire false v x) (DescribeLogDirsResponse.of v x t0) :=
  Reads.congr (((Step.field (set := fun (t : DescribeLogDirsResponse) x => { t with ThrottleTimeMs := x }) (read_int32 (Fields.Valid.head (h) hv)))
      |>.andThen (Step.readStructs (get := fun (t : DescribeLogDirsResponse) => t.Results) (set := fun (t : DescribeLogDirsResponse) x => { t with Results := x }) (fun y hy => DescribeLogDirsResult35.decodes hv y hy {}) (Fields.Valid.head (Fields.Valid.tail h) hv)) : Step _ _ _) t0)
    (Writes.eq (fs := Protocol.DescribeLogDirsResponse) (v := v) (x := x) <| Writes.all hv rfl <| Writes.all hv rfl <| Writes.done).symm rfl

theorem DescribeLogDirsResponse.parses {v : Int16} (hv : 0 ≤ v) (t0 : DescribeLogDirsResponse) :
    Parses (DescribeLogDirsResponse.decode v t0) ((Ty.struct Protocol.DescribeLogDirsResponse).parse v) (fun x => DescribeLogDirsResponse.of v x t0) :=
  FParses.parses (fs := Protocol.DescribeLogDirsResponse)
    (FParses.field hv (set := fun (t : DescribeLogDirsResponse) x => { t with ThrottleTimeMs := x }) par_int32 <|
    FParses.structs hv (get := fun (t : DescribeLogDirsResponse) => t.Results) (set := fun (t : DescribeLogDirsResponse) x => { t with Results := x }) (DescribeLogDirsResult35.parses hv {}) <|
    FParses.done)
    (by simp only [DescribeLogDirsResponse.decode, Dec.andThen_nop]) (Fields.distinct_nodup _ (by decide +kernel)) (fun _ _ => rfl) t0

theorem DescribeLogDirsResponse.shown {v : Int16} (hv : 0 ≤ v) (x : Val) (h : Protocol.DescribeLogDirsResponse.Typed v x) :
    Protocol.DescribeLogDirsResponse.shows v x (DescribeLogDirsResponse.val (DescribeLogDirsResponse.of v x {})) = true :=
  Shows.all hv (show_int32 (Fields.Typed.head (h) hv)) <|
    Shows.all hv (show_structs (f := DescribeLogDirsResult35.val) (g := fun y => DescribeLogDirsResult35.of v y {}) (fun y hy => DescribeLogDirsResult35.shown hv y hy) (Fields.Typed.head (Fields.Typed.tail h) hv)) <|
    rfl

end Kafka.Msg
