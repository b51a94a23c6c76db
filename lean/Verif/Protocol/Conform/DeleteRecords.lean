import Verif.Protocol.ParseLemmas
import Verif.Gen.Spec.DeleteRecords
/-!
Generated by tools/gen_protocol.py: the DeleteRecords messages are written and read as the protocol says.
-/
namespace Kafka.Msg

open Protocol

/-- `DeleteRecordsPartition21` as a value of the protocol. -/
def DeleteRecordsPartition21.val (t : DeleteRecordsPartition21) : Val :=
  .struct [("PartitionIndex", .int32 t.PartitionIndex),
    ("Offset", .int64 t.Offset)]

theorem DeleteRecordsPartition21.conforms {v : Int16} (hv : 0 ≤ v) (t : DeleteRecordsPartition21) :
    Protocol.DeleteRecordsPartition.wire false v (DeleteRecordsPartition21.val t) = DeleteRecordsPartition21.wire v t :=
  Writes.eq <|
    Writes.all hv (Protocol.wire_int32 v t.PartitionIndex) <|
    Writes.all hv (Protocol.wire_int64 v t.Offset) <|
    Writes.done

/-- There is nothing that may not be nil. -/
def DeleteRecordsPartition21.Full (_v : Int16) (_t : DeleteRecordsPartition21) : Prop := True

theorem DeleteRecordsPartition21.valid {v : Int16} (_hv : 0 ≤ v) (t : DeleteRecordsPartition21) (_h : t.Fits v) (_hf : t.Full v) :
    Protocol.DeleteRecordsPartition.Valid true v (DeleteRecordsPartition21.val t) :=
  Valids.all trivial <|
    Valids.all trivial <|
    trivial

/-- `DeleteRecordsTopic21` as a value of the protocol. -/
def DeleteRecordsTopic21.val (t : DeleteRecordsTopic21) : Val :=
  .struct [("Name", .str (some t.Name)),
    ("Partitions", ofStructs DeleteRecordsPartition21.val t.Partitions)]

theorem DeleteRecordsTopic21.conforms {v : Int16} (hv : 0 ≤ v) (t : DeleteRecordsTopic21) :
    Protocol.DeleteRecordsTopic.wire false v (DeleteRecordsTopic21.val t) = DeleteRecordsTopic21.wire v t :=
  Writes.eq <|
    Writes.all hv (Protocol.wire_string v t.Name) <|
    Writes.all hv (Protocol.wire_structs v (DeleteRecordsPartition21.conforms hv) t.Partitions) <|
    Writes.done

/-- There is nothing that may not be nil. -/
def DeleteRecordsTopic21.Full (_v : Int16) (_t : DeleteRecordsTopic21) : Prop := True

theorem DeleteRecordsTopic21.valid {v : Int16} (hv : 0 ≤ v) (t : DeleteRecordsTopic21) (h : t.Fits v) (_hf : t.Full v) :
    Protocol.DeleteRecordsTopic.Valid true v (DeleteRecordsTopic21.val t) :=
  Valids.all (valid_string (h.Name)) <|
    Valids.all (valid_structs (fun y h hf => DeleteRecordsPartition21.valid hv y h hf) (h.Partitions) (fun _ _ => trivial)) <|
    trivial

/-- `DeleteRecordsRequest` as a value of the protocol. -/
def DeleteRecordsRequest.val (t : DeleteRecordsRequest) : Val :=
  .struct [("Topics", ofStructs DeleteRecordsTopic21.val t.Topics),
    ("TimeoutMs", .int32 t.TimeoutMs)]

theorem DeleteRecordsRequest.conforms {v : Int16} (hv : 0 ≤ v) (t : DeleteRecordsRequest) :
    Protocol.DeleteRecordsRequest.wire false v (DeleteRecordsRequest.val t) = DeleteRecordsRequest.wire v t :=
  Writes.eq <|
    Writes.all hv (Protocol.wire_structs v (DeleteRecordsTopic21.conforms hv) t.Topics) <|
    Writes.all hv (Protocol.wire_int32 v t.TimeoutMs) <|
    Writes.done

/-- There is nothing that may not be nil. -/
def DeleteRecordsRequest.Full (_v : Int16) (_t : DeleteRecordsRequest) : Prop := True

theorem DeleteRecordsRequest.valid {v : Int16} (hv : 0 ≤ v) (t : DeleteRecordsRequest) (h : t.Fits v) (_hf : t.Full v) :
    Protocol.DeleteRecordsRequest.Valid true v (DeleteRecordsRequest.val t) :=
  Valids.all (valid_structs (fun y h hf => DeleteRecordsTopic21.valid hv y h hf) (h.Topics) (fun _ _ => trivial)) <|
    Valids.all trivial <|
    trivial

/-- `DeleteRecordsPartitionResult21` as a value of the protocol. -/
def DeleteRecordsPartitionResult21.val (t : DeleteRecordsPartitionResult21) : Val :=
  .struct [("PartitionIndex", .int32 t.PartitionIndex),
    ("LowWatermark", .int64 t.LowWatermark),
    ("ErrorCode", .int16 t.ErrorCode)]

theorem DeleteRecordsPartitionResult21.conforms {v : Int16} (hv : 0 ≤ v) (t : DeleteRecordsPartitionResult21) :
    Protocol.DeleteRecordsPartitionResult.wire false v (DeleteRecordsPartitionResult21.val t) = DeleteRecordsPartitionResult21.wire v t :=
  Writes.eq <|
    Writes.all hv (Protocol.wire_int32 v t.PartitionIndex) <|
    Writes.all hv (Protocol.wire_int64 v t.LowWatermark) <|
    Writes.all hv (Protocol.wire_int16 v t.ErrorCode) <|
    Writes.done

/-- There is nothing that may not be nil. -/
def DeleteRecordsPartitionResult21.Full (_v : Int16) (_t : DeleteRecordsPartitionResult21) : Prop := True

theorem DeleteRecordsPartitionResult21.valid {v : Int16} (_hv : 0 ≤ v) (t : DeleteRecordsPartitionResult21) (_h : t.Fits v) (_hf : t.Full v) :
    Protocol.DeleteRecordsPartitionResult.Valid true v (DeleteRecordsPartitionResult21.val t) :=
  Valids.all trivial <|
    Valids.all trivial <|
    Valids.all trivial <|
    trivial

/-- What `DeleteRecordsPartitionResult21` holds after reading the value `x` into `t0`. -/
def DeleteRecordsPartitionResult21.of (_v : Int16) (x : Val) (_t0 : DeleteRecordsPartitionResult21) : DeleteRecordsPartitionResult21 :=
  { PartitionIndex := (x.get "PartitionIndex").toInt32,
    LowWatermark := (x.get "LowWatermark").toInt64,
    ErrorCode := (x.get "ErrorCode").toInt16 }

theorem DeleteRecordsPartitionResult21.decodes {v : Int16} (hv : 0 ≤ v) (x : Val) (h : Protocol.DeleteRecordsPartitionResult.Valid false v x) (t0 : DeleteRecordsPartitionResult21) :
    Reads (DeleteRecordsPartitionResult21.decode v t0) (Protocol.DeleteRecordsPartitionResult.wire false v x) (DeleteRecordsPartitionResult21.of v x t0) :=
  Reads.congr (((Step.field (set := fun (t : DeleteRecordsPartitionResult21) x => { t with PartitionIndex := x }) (read_int32 (Fields.Valid.head (h) hv)))
      |>.andThen (Step.field (set := fun (t : DeleteRecordsPartitionResult21) x => { t with LowWatermark := x }) (read_int64 (Fields.Valid.head (Fields.Valid.tail h) hv)))
      |>.andThen (Step.field (set := fun (t : DeleteRecordsPartitionResult21) x => { t with ErrorCode := x }) (read_int16 (Fields.Valid.head (Fields.Valid.tail (Fields.Valid.tail h)) hv))) : Step _ _ _) t0)
    (Writes.eq (fs := Protocol.DeleteRecordsPartitionResult) (v := v) (x := x) <| Writes.all hv rfl <| Writes.all hv rfl <| Writes.all hv rfl <| Writes.done).symm rfl

theorem DeleteRecordsPartitionResult21.parses {v : Int16} (hv : 0 ≤ v) (t0 : DeleteRecordsPartitionResult21) :
    Parses (DeleteRecordsPartitionResult21.decode v t0) ((Ty.struct Protocol.DeleteRecordsPartitionResult).parse v) (fun x => DeleteRecordsPartitionResult21.of v x t0) :=
  FParses.parses (fs := Protocol.DeleteRecordsPartitionResult)
    (FParses.field hv (set := fun (t : DeleteRecordsPartitionResult21) x => { t with PartitionIndex := x }) par_int32 <|
    FParses.field hv (set := fun (t : DeleteRecordsPartitionResult21) x => { t with LowWatermark := x }) par_int64 <|
    FParses.field hv (set := fun (t : DeleteRecordsPartitionResult21) x => { t with ErrorCode := x }) par_int16 <|
    FParses.done)
    (by simp only [DeleteRecordsPartitionResult21.decode, Dec.andThen_assoc, Dec.andThen_nop]) (Fields.distinct_nodup _ (by decide +kernel)) (fun _ _ => rfl) t0

theorem DeleteRecordsPartitionResult21.shown {v : Int16} (hv : 0 ≤ v) (x : Val) (h : Protocol.DeleteRecordsPartitionResult.Typed v x) :
    Protocol.DeleteRecordsPartitionResult.shows v x (DeleteRecordsPartitionResult21.val (DeleteRecordsPartitionResult21.of v x {})) = true :=
  Shows.all hv (show_int32 (Fields.Typed.head (h) hv)) <|
    Shows.all hv (show_int64 (Fields.Typed.head (Fields.Typed.tail h) hv)) <|
    Shows.all hv (show_int16 (Fields.Typed.head (Fields.Typed.tail (Fields.Typed.tail h)) hv)) <|
    rfl

/-- `DeleteRecordsTopicResult21` as a value of the protocol. -/
def DeleteRecordsTopicResult21.val (t : DeleteRecordsTopicResult21) : Val :=
  .struct [("Name", .str (some t.Name)),
    ("Partitions", ofStructs DeleteRecordsPartitionResult21.val t.Partitions)]

theorem DeleteRecordsTopicResult21.conforms {v : Int16} (hv : 0 ≤ v) (t : DeleteRecordsTopicResult21) :
    Protocol.DeleteRecordsTopicResult.wire false v (DeleteRecordsTopicResult21.val t) = DeleteRecordsTopicResult21.wire v t :=
  Writes.eq <|
    Writes.all hv (Protocol.wire_string v t.Name) <|
    Writes.all hv (Protocol.wire_structs v (DeleteRecordsPartitionResult21.conforms hv) t.Partitions) <|
    Writes.done

/-- There is nothing that may not be nil. -/
def DeleteRecordsTopicResult21.Full (_v : Int16) (_t : DeleteRecordsTopicResult21) : Prop := True

theorem DeleteRecordsTopicResult21.valid {v : Int16} (hv : 0 ≤ v) (t : DeleteRecordsTopicResult21) (h : t.Fits v) (_hf : t.Full v) :
    Protocol.DeleteRecordsTopicResult.Valid true v (DeleteRecordsTopicResult21.val t) :=
  Valids.all (valid_string (h.Name)) <|
    Valids.all (valid_structs (fun y h hf => DeleteRecordsPartitionResult21.valid hv y h hf) (h.Partitions) (fun _ _ => trivial)) <|
    trivial

/-- What `DeleteRecordsTopicResult21` holds after reading the value `x` into `t0`. -/
def DeleteRecordsTopicResult21.of (v : Int16) (x : Val) (t0 : DeleteRecordsTopicResult21) : DeleteRecordsTopicResult21 :=
  { Name := (x.get "Name").toStr,
    Partitions := (x.get "Partitions").toSliceOr (fun y => DeleteRecordsPartitionResult21.of v y {}) t0.Partitions }

theorem DeleteRecordsTopicResult21.decodes {v : Int16} (hv : 0 ≤ v) (x : Val) (h : Protocol.DeleteRecordsTopicResult.Valid false v x) (t0 : DeleteRecordsTopicResult21) :
    Reads (DeleteRecordsTopicResult21.decode v t0) (Protocol.DeleteRecordsTopicResult.wire false v x) (DeleteRecordsTopicResult21.of v x t0) :=
  Reads.congr (((Step.field (set := fun (t : DeleteRecordsTopicResult21) x => { t with Name := x }) (read_string (Fields.Valid.head (h) hv)))
      |>.andThen (Step.readStructs (get := fun (t : DeleteRecordsTopicResult21) => t.Partitions) (set := fun (t : DeleteRecordsTopicResult21) x => { t with Partitions := x }) (fun y hy => DeleteRecordsPartitionResult21.decodes hv y hy {}) (Fields.Valid.head (Fields.Valid.tail h) hv)) : Step _ _ _) t0)
    (Writes.eq (fs := Protocol.DeleteRecordsTopicResult) (v := v) (x := x) <| Writes.all hv rfl <| Writes.all hv rfl <| Writes.done).symm rfl

theorem DeleteRecordsTopicResult21.parses {v : Int16} (hv : 0 ≤ v) (t0 : DeleteRecordsTopicResult21) :
    Parses (DeleteRecordsTopicResult21.decode v t0) ((Ty.struct Protocol.DeleteRecordsTopicResult).parse v) (fun x => DeleteRecordsTopicResult21.of v x t0) :=
  FParses.parses (fs := Protocol.DeleteRecordsTopicResult)
    (FParses.field hv (set := fun (t : DeleteRecordsTopicResult21) x => { t with Name := x }) par_string <|
    FParses.structs hv (get := fun (t : DeleteRecordsTopicResult21) => t.Partitions) (set := fun (t : DeleteRecordsTopicResult21) x => { t with Partitions := x }) (DeleteRecordsPartitionResult21.parses hv {}) <|
    FParses.done)
    (by simp only [DeleteRecordsTopicResult21.decode, Dec.andThen_nop]) (Fields.distinct_nodup _ (by decide +kernel)) (fun _ _ => rfl) t0

theorem DeleteRecordsTopicResult21.shown {v : Int16} (hv : 0 ≤ v) (x : Val) (h : Protocol.DeleteRecordsTopicResult.Typed v x) :
    Protocol.DeleteRecordsTopicResult.shows v x (DeleteRecordsTopicResult21.val (DeleteRecordsTopicResult21.of v x {})) = true :=
  Shows.all hv (show_string (Fields.Typed.head (h) hv)) <|
    Shows.all hv (show_structs (f := DeleteRecordsPartitionResult21.val) (g := fun y => DeleteRecordsPartitionResult21.of v y {}) (fun y hy => DeleteRecordsPartitionResult21.shown hv y hy) (Fields.Typed.head (Fields.Typed.tail h) hv)) <|
    rfl

/-- `DeleteRecordsResponse` as a value of the protocol. -/
def DeleteRecordsResponse.val (t : DeleteRecordsResponse) : Val :=
  .struct [("ThrottleTimeMs", .int32 t.ThrottleTimeMs),
    ("Topics", ofStructs DeleteRecordsTopicResult21.val t.Topics)]

theorem DeleteRecordsResponse.conforms {v : Int16} (hv : 0 ≤ v) (t : DeleteRecordsResponse) :
    Protocol.DeleteRecordsResponse.wire false v (DeleteRecordsResponse.val t) = DeleteRecordsResponse.wire v t :=
  Writes.eq <|
    Writes.all hv (Protocol.wire_int32 v t.ThrottleTimeMs) <|
    Writes.all hv (Protocol.wire_structs v (DeleteRecordsTopicResult21.conforms hv) t.Topics) <|
    Writes.done

/-- There is nothing that may not be nil. -/
def DeleteRecordsResponse.Full (_v : Int16) (_t : DeleteRecordsResponse) : Prop := True

theorem DeleteRecordsResponse.valid {v : Int16} (hv : 0 ≤ v) (t : DeleteRecordsResponse) (h : t.Fits v) (_hf : t.Full v) :
    Protocol.DeleteRecordsResponse.Valid true v (DeleteRecordsResponse.val t) :=
  Valids.all trivial <|
    Valids.all (valid_structs (fun y h hf => DeleteRecordsTopicResult21.valid hv y h hf) (h.Topics) (fun _ _ => trivial)) <|
    trivial

/-- What `DeleteRecordsResponse` holds after reading the value `x` into `t0`. -/
def DeleteRecordsResponse.of (v : Int16) (x : Val) (t0 : DeleteRecordsResponse) : DeleteRecordsResponse :=
  { ThrottleTimeMs := (x.get "ThrottleTimeMs").toInt32,
    Topics := (x.get "Topics").toSliceOr (fun y => DeleteRecordsTopicResult21.of v y {}) t0.Topics }

theorem DeleteRecordsResponse.decodes {v : Int16} (hv : 0 ≤ v) (x : Val) (h : Protocol.DeleteRecordsResponse.Valid false v x) (t0 : DeleteRecordsResponse) :
    Reads (DeleteRecordsResponse.decode v t0) (Protocol.DeleteRecordsResponse.wire false v x) (DeleteRecordsResponse.of v x t0) :=
  Reads.congr (((Step.field (set := fun (t : DeleteRecordsResponse) x => { t with ThrottleTimeMs := x }) (read_int32 (Fields.Valid.head (h) hv)))
      |>.andThen (Step.readStructs (get := fun (t : DeleteRecordsResponse) => t.Topics) (set := fun (t : DeleteRecordsResponse) x => { t with Topics := x }) (fun y hy => DeleteRecordsTopicResult21.decodes hv y hy {}) (Fields.Valid.head (Fields.Valid.tail h) hv)) : Step _ _ _) t0)
    (Writes.eq (fs := Protocol.DeleteRecordsResponse) (v := v) (x := x) <| Writes.all hv rfl <| Writes.all hv rfl <| Writes.done).symm rfl

theorem DeleteRecordsResponse.parses {v : Int16} (hv : 0 ≤ v) (t0 : DeleteRecordsResponse) :
    Parses (DeleteRecordsResponse.decode v t0) ((Ty.struct Protocol.DeleteRecordsResponse).parse v) (fun x => DeleteRecordsResponse.of v x t0) :=
  FParses.parses (fs := Protocol.DeleteRecordsResponse)
    (FParses.field hv (set := fun (t : DeleteRecordsResponse) x => { t with ThrottleTimeMs := x }) par_int32 <|
    FParses.structs hv (get := fun (t : DeleteRecordsResponse) => t.Topics) (set := fun (t : DeleteRecordsResponse) x => { t with Topics := x }) (DeleteRecordsTopicResult21.parses hv {}) <|
    FParses.done)
    (by simp only [DeleteRecordsResponse.decode, Dec.andThen_nop]) (Fields.distinct_nodup _ (by decide +kernel)) (fun _ _ => rfl) t0

theorem DeleteRecordsResponse.shown {v : Int16} (hv : 0 ≤ v) (x : Val) (h : Protocol.DeleteRecordsResponse.Typed v x) :
    Protocol.DeleteRecordsResponse.shows v x (DeleteRecordsResponse.val (DeleteRecordsResponse.of v x {})) = true :=
  Shows.all hv (show_int32 (Fields.Typed.head (h) hv)) <|
    Shows.all hv (show_structs (f := DeleteRecordsTopicResult21.val) (g := fun y => DeleteRecordsTopicResult21.of v y {}) (fun y hy => DeleteRecordsTopicResult21.shown hv y hy) (Fields.Typed.head (Fields.Typed.tail h) hv)) <|
    rfl

end Kafka.Msg
