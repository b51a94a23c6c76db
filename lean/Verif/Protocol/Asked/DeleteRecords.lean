import Verif.Protocol.Conform.DeleteRecords
/-!
Generated by tools/gen_protocol.py: the DeleteRecords request is read as the protocol says.
-/
namespace Kafka.Msg

open Protocol

/-- What `DeleteRecordsPartition21` holds after reading the value `x` into `t0`. -/
def DeleteRecordsPartition21.of (_v : Int16) (x : Val) (_t0 : DeleteRecordsPartition21) : DeleteRecordsPartition21 :=
  { PartitionIndex := (x.get "PartitionIndex").toInt32,
    Offset := (x.get "Offset").toInt64 }

theorem DeleteRecordsPartition21.decodes {v : Int16} (hv : 0 ≤ v) (x : Val) (h : Protocol.DeleteRecordsPartition.Valid false v x) (t0 : DeleteRecordsPartition21) :
    Reads (DeleteRecordsPartition21.decode v t0) (Protocol.DeleteRecordsPartition.wire false v x) (DeleteRecordsPartition21.of v x t0) :=
  Reads.congr (((Step.field (set := fun (t : DeleteRecordsPartition21) x => { t with PartitionIndex := x }) (read_int32 (Fields.Valid.head (h) hv)))
      |>.andThen (Step.field (set := fun (t : DeleteRecordsPartition21) x => { t with Offset := x }) (read_int64 (Fields.Valid.head (Fields.Valid.tail h) hv))) : Step _ _ _) t0)
    (Writes.eq (fs := Protocol.DeleteRecordsPartition) (v := v) (x := x) <| Writes.all hv rfl <| Writes.all hv rfl <| Writes.done).symm rfl

theorem DeleteRecordsPartition21.parses {v : Int16} (hv : 0 ≤ v) (t0 : DeleteRecordsPartition21) :
    Parses (DeleteRecordsPartition21.decode v t0) ((Ty.struct Protocol.DeleteRecordsPartition).parse v) (fun x => DeleteRecordsPartition21.of v x t0) :=
  FParses.parses (fs := Protocol.DeleteRecordsPartition)
    (FParses.field hv (set := fun (t : DeleteRecordsPartition21) x => { t with PartitionIndex := x }) par_int32 <|
    FParses.field hv (set := fun (t : DeleteRecordsPartition21) x => { t with Offset := x }) par_int64 <|
    FParses.done)
    (by simp only [DeleteRecordsPartition21.decode, Dec.andThen_nop]) (Fields.distinct_nodup _ (by decide +kernel)) (fun _ _ => rfl) t0

theorem DeleteRecordsPartition21.shown {v : Int16} (hv : 0 ≤ v) (x : Val) (h : Protocol.DeleteRecordsPartition.Typed v x) :
    Protocol.DeleteRecordsPartition.shows v x (DeleteRecordsPartition21.val (DeleteRecordsPartition21.of v x {})) = true :=
  Shows.all hv (show_int32 (Fields.Typed.head (h) hv)) <|
    Shows.all hv (show_int64 (Fields.Typed.head (Fields.Typed.tail h) hv)) <|
    rfl

/-- What `DeleteRecordsTopic21` holds after reading the value `x` into `t0`. -/
def DeleteRecordsTopic21.of (v : Int16) (x : Val) (t0 : DeleteRecordsTopic21) : DeleteRecordsTopic21 :=
  { Name := (x.get "Name").toStr,
    Partitions := (x.get "Partitions").toSliceOr (fun y => DeleteRecordsPartition21.of v y {}) t0.Partitions }

theorem DeleteRecordsTopic21.decodes {v : Int16} (hv : 0 ≤ v) (x : Val) (h : Protocol.DeleteRecordsTopic.Valid false v x) (t0 : DeleteRecordsTopic21) :
    Reads (DeleteRecordsTopic21.decode v t0) (Protocol.DeleteRecordsTopic.wire false v x) (DeleteRecordsTopic21.of v x t0) :=
  Reads.congr (((Step.field (set := fun (t : DeleteRecordsTopic21) x => { t with Name := x }) (read_string (Fields.Valid.head (h) hv)))
      |>.andThen (Step.readStructs (get := fun (t : DeleteRecordsTopic21) => t.Partitions) (set := fun (t : DeleteRecordsTopic21) x => { t with Partitions := x }) (fun y hy => DeleteRecordsPartition21.decodes hv y hy {}) (Fields.Valid.head (Fields.Valid.tail h) hv)) : Step _ _ _) t0)
    (Writes.eq (fs := Protocol.DeleteRecordsTopic) (v := v) (x := x) <| Writes.all hv rfl <| Writes.all hv rfl <| Writes.done).symm rfl

theorem DeleteRecordsTopic21.parses {v : Int16} (hv : 0 ≤ v) (t0 : DeleteRecordsTopic21) :
    Parses (DeleteRecordsTopic21.decode v t0) ((Ty.struct Protocol.DeleteRecordsTopic).parse v) (fun x => DeleteRecordsTopic21.of v x t0) :=
  FParses.parses (fs := Protocol.DeleteRecordsTopic)
    (FParses.field hv (set := fun (t : DeleteRecordsTopic21) x => { t with Name := x }) par_string <|
    FParses.structs hv (get := fun (t : DeleteRecordsTopic21) => t.Partitions) (set := fun (t : DeleteRecordsTopic21) x => { t with Partitions := x }) (DeleteRecordsPartition21.parses hv {}) <|
    FParses.done)
    (by simp only [DeleteRecordsTopic21.decode, Dec.andThen_nop]) (Fields.distinct_nodup _ (by decide +kernel)) (fun _ _ => rfl) t0

theorem DeleteRecordsTopic21.shown {v : Int16} (hv : 0 ≤ v) (x : Val) (h : Protocol.DeleteRecordsTopic.Typed v x) :
    Protocol.DeleteRecordsTopic.shows v x (DeleteRecordsTopic21.val (DeleteRecordsTopic21.of v x {})) = true :=
  Shows.all hv (show_string (Fields.Typed.head (h) hv)) <|
    Shows.all hv (show_structs (f := DeleteRecordsPartition21.val) (g := fun y => DeleteRecordsPartition21.of v y {}) (fun y hy => DeleteRecordsPartition21.shown hv y hy) (Fields.Typed.head (Fields.Typed.tail h) hv)) <|
    rfl

/-- What `DeleteRecordsRequest` holds after reading the value `x` into `t0`. -/
def DeleteRecordsRequest.of (v : Int16) (x : Val) (t0 : DeleteRecordsRequest) : DeleteRecordsRequest :=
  { Topics := (x.get "Topics").toSliceOr (fun y => DeleteRecordsTopic21.of v y {}) t0.Topics,
    TimeoutMs := (x.get "TimeoutMs").toInt32 }

theorem DeleteRecordsRequest.decodes {v : Int16} (hv : 0 ≤ v) (x : Val) (h : Protocol.DeleteRecordsRequest.Valid false v x) (t0 : DeleteRecordsRequest) :
    Reads (DeleteRecordsRequest.decode v t0) (Protocol.DeleteRecordsRequest.wire false v x) (DeleteRecordsRequest.of v x t0) :=
  Reads.congr (((Step.readStructs (get := fun (t : DeleteRecordsRequest) => t.Topics) (set := fun (t : DeleteRecordsRequest) x => { t with Topics := x }) (fun y hy => DeleteRecordsTopic21.decodes hv y hy {}) (Fields.Valid.head (h) hv))
      |>.andThen (Step.field (set := fun (t : DeleteRecordsRequest) x => { t with TimeoutMs := x }) (read_int32 (Fields.Valid.head (Fields.Valid.tail h) hv))) : Step _ _ _) t0)
    (Writes.eq (fs := Protocol.DeleteRecordsRequest) (v := v) (x := x) <| Writes.all hv rfl <| Writes.all hv rfl <| Writes.done).symm rfl

theorem DeleteRecordsRequest.parses {v : Int16} (hv : 0 ≤ v) (t0 : DeleteRecordsRequest) :
    Parses (DeleteRecordsRequest.decode v t0) ((Ty.struct Protocol.DeleteRecordsRequest).parse v) (fun x => DeleteRecordsRequest.of v x t0) :=
  FParses.parses (fs := Protocol.DeleteRecordsRequest)
    (FParses.structs hv (get := fun (t : DeleteRecordsRequest) => t.Topics) (set := fun (t : DeleteRecordsRequest) x => { t with Topics := x }) (DeleteRecordsTopic21.parses hv {}) <|
    FParses.field hv (set := fun (t : DeleteRecordsRequest) x => { t with TimeoutMs := x }) par_int32 <|
    FParses.done)
    (by simp only [DeleteRecordsRequest.decode, Dec.andThen_nop]) (Fields.distinct_nodup _ (by decide +kernel)) (fun _ _ => rfl) t0

theorem DeleteRecordsRequest.shown {v : Int16} (hv : 0 ≤ v) (x : Val) (h : Protocol.DeleteRecordsRequest.Typed v x) :
    Protocol.DeleteRecordsRequest.shows v x (DeleteRecordsRequest.val (DeleteRecordsRequest.of v x {})) = true :=
  Shows.all hv (show_structs (f := DeleteRecordsTopic21.val) (g := fun y => DeleteRecordsTopic21.of v y {}) (fun y hy => DeleteRecordsTopic21.shown hv y hy) (Fields.Typed.head (h) hv)) <|
    Shows.all hv (show_int32 (Fields.Typed.head (Fields.Typed.tail h) hv)) <|
    rfl

end Kafka.Msg
