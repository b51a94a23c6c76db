import Verif.Protocol.ParseLemmas
import Verif.Gen.Spec.TxnOffsetCommit
/-!
Generated by tools/gen_protocol.py: the TxnOffsetCommit messages are written and read as the protocol says.
-/
namespace Kafka.Msg

open Protocol

/-- `TxnOffsetCommitRequestPartition28` as a value of the protocol. -/
def TxnOffsetCommitRequestPartition28.val (t : TxnOffsetCommitRequestPartition28) : Val :=
  .struct [("PartitionIndex", .int32 t.PartitionIndex),
    ("CommittedOffset", .int64 t.CommittedOffset),
    ("CommittedLeaderEpoch", .int32 t.CommittedLeaderEpoch),
    ("CommittedMetadata", .str (some t.CommittedMetadata))]

theorem TxnOffsetCommitRequestPartition28.conforms {v : Int16} (hv : 0 ≤ v) (t : TxnOffsetCommitRequestPartition28) :
    Protocol.TxnOffsetCommitRequestPartition.wire false v (TxnOffsetCommitRequestPartition28.val t) = TxnOffsetCommitRequestPartition28.wire v t :=
  Writes.eq <|
    Writes.all hv (Protocol.wire_int32 v t.PartitionIndex) <|
    Writes.all hv (Protocol.wire_int64 v t.CommittedOffset) <|
    Writes.since (Protocol.wire_int32 v t.CommittedLeaderEpoch) <|
    Writes.all hv (Protocol.wire_string v t.CommittedMetadata) <|
    Writes.done

/-- There is nothing that may not be nil. -/
def TxnOffsetCommitRequestPartition28.Full (_v : Int16) (_t : TxnOffsetCommitRequestPartition28) : Prop := True

theorem TxnOffsetCommitRequestPartition28.valid {v : Int16} (_hv : 0 ≤ v) (t : TxnOffsetCommitRequestPartition28) (h : t.Fits v) (_hf : t.Full v) :
    Protocol.TxnOffsetCommitRequestPartition.Valid true v (TxnOffsetCommitRequestPartition28.val t) :=
  Valids.all trivial <|
    Valids.all trivial <|
    Valids.since (fun _ => trivial) <|
    Valids.all (valid_string (h.CommittedMetadata)) <|
    trivial

/-- `TxnOffsetCommitRequestTopic28` as a value of the protocol. -/
def TxnOffsetCommitRequestTopic28.val (t : TxnOffsetCommitRequestTopic28) : Val :=
  .struct [("Name", .str (some t.Name)),
    ("Partitions", ofStructs TxnOffsetCommitRequestPartition28.val t.Partitions)]

theorem TxnOffsetCommitRequestTopic28.conforms {v : Int16} (hv : 0 ≤ v) (t : TxnOffsetCommitRequestTopic28) :
    Protocol.TxnOffsetCommitRequestTopic.wire false v (TxnOffsetCommitRequestTopic28.val t) = TxnOffsetCommitRequestTopic28.wire v t :=
  Writes.eq <|
    Writes.all hv (Protocol.wire_string v t.Name) <|
    Writes.all hv (Protocol.wire_structs v (TxnOffsetCommitRequestPartition28.conforms hv) t.Partitions) <|
    Writes.done

/-- There is nothing that may not be nil. -/
def TxnOffsetCommitRequestTopic28.Full (_v : Int16) (_t : TxnOffsetCommitRequestTopic28) : Prop := True

theorem TxnOffsetCommitRequestTopic28.valid {v : Int16} (hv : 0 ≤ v) (t : TxnOffsetCommitRequestTopic28) (h : t.Fits v) (_hf : t.Full v) :
    Protocol.TxnOffsetCommitRequestTopic.Valid true v (TxnOffsetCommitRequestTopic28.val t) :=
  Valids.all (valid_string (h.Name)) <|
    Valids.all (valid_structs (fun y h hf => TxnOffsetCommitRequestPartition28.valid hv y h hf) (h.Partitions) (fun _ _ => trivial)) <|
    trivial

/-- `TxnOffsetCommitRequest` as a value of the protocol. -/
def TxnOffsetCommitRequest.val (t : TxnOffsetCommitRequest) : Val :=
  .struct [("TransactionalId", .str (some t.TransactionalId)),
    ("GroupId", .str (some t.GroupId)),
    ("ProducerId", .int64 t.ProducerId),
    ("ProducerEpoch", .int16 t.ProducerEpoch),
    ("Topics", ofStructs TxnOffsetCommitRequestTopic28.val t.Topics)]

theorem TxnOffsetCommitRequest.conforms {v : Int16} (hv : 0 ≤ v) (t : TxnOffsetCommitRequest) :
    Protocol.TxnOffsetCommitRequest.wire false v (TxnOffsetCommitRequest.val t) = TxnOffsetCommitRequest.wire v t :=
  Writes.eq <|
    Writes.all hv (Protocol.wire_string v t.TransactionalId) <|
    Writes.all hv (Protocol.wire_string v t.GroupId) <|
    Writes.all hv (Protocol.wire_int64 v t.ProducerId) <|
    Writes.all hv (Protocol.wire_int16 v t.ProducerEpoch) <|
    Writes.all hv (Protocol.wire_structs v (TxnOffsetCommitRequestTopic28.conforms hv) t.Topics) <|
    Writes.done

/-- There is nothing that may not be nil. -/
def TxnOffsetCommitRequest.Full (_v : Int16) (_t : TxnOffsetCommitRequest) : Prop := True

theorem TxnOffsetCommitRequest.valid {v : Int16} (hv : 0 ≤ v) (t : TxnOffsetCommitRequest) (h : t.Fits v) (_hf : t.Full v) :
    Protocol.TxnOffsetCommitRequest.Valid true v (TxnOffsetCommitRequest.val t) :=
  Valids.all (valid_string (h.TransactionalId)) <|
    Valids.all (valid_string (h.GroupId)) <|
    Valids.all trivial <|
    Valids.all trivial <|
    Valids.all (valid_structs (fun y h hf => TxnOffsetCommitRequestTopic28.valid hv y h hf) (h.Topics) (fun _ _ => trivial)) <|
    trivial

/-- `TxnOffsetCommitResponsePartition28` as a value of the protocol. -/
def TxnOffsetCommitResponsePartition28.val (t : TxnOffsetCommitResponsePartition28) : Val :=
  .struct [("PartitionIndex", .int32 t.PartitionIndex),
    ("ErrorCode", .int16 t.ErrorCode)]

theorem TxnOffsetCommitResponsePartition28.conforms {v : Int16} (hv : 0 ≤ v) (t : TxnOffsetCommitResponsePartition28) :
    Protocol.TxnOffsetCommitResponsePartition.wire false v (TxnOffsetCommitResponsePartition28.val t) = TxnOffsetCommitResponsePartition28.wire v t :=
  Writes.eq <|
    Writes.all hv (Protocol.wire_int32 v t.PartitionIndex) <|
    Writes.all hv (Protocol.wire_int16 v t.ErrorCode) <|
    Writes.done

/-- There is nothing that may not be nil. -/
def TxnOffsetCommitResponsePartition28.Full (_v : Int16) (_t : TxnOffsetCommitResponsePartition28) : Prop := True

theorem TxnOffsetCommitResponsePartition28.valid {v : Int16} (_hv : 0 ≤ v) (t : TxnOffsetCommitResponsePartition28) (_h : t.Fits v) (_hf : t.Full v) :
    Protocol.TxnOffsetCommitResponsePartition.Valid true v (TxnOffsetCommitResponsePartition28.val t) :=
  Valids.all trivial <|
    Valids.all trivial <|
    trivial

/-- What `TxnOffsetCommitResponsePartition28` holds after reading the value `x` into `t0`. -/
def TxnOffsetCommitResponsePartition28.of (_v : Int16) (x : Val) (_t0 : TxnOffsetCommitResponsePartition28) : TxnOffsetCommitResponsePartition28 :=
  { PartitionIndex := (x.get "PartitionIndex").toInt32,
    ErrorCode := (x.get "ErrorCode").toInt16 }

theorem TxnOffsetCommitResponsePartition28.decodes {v : Int16} (hv : 0 ≤ v) (x : Val) (h : Protocol.TxnOffsetCommitResponsePartition.Valid false v x) (t0 : TxnOffsetCommitResponsePartition28) :
    Reads (TxnOffsetCommitResponsePartition28.decode v t0) (Protocol.TxnOffsetCommitResponsePartition.wire false v x) (TxnOffsetCommitResponsePartition28.of v x t0) :=
  Reads.congr (((Step.field (set := fun (t : TxnOffsetCommitResponsePartition28) x => { t with PartitionIndex := x }) (read_int32 (Fields.Valid.head (h) hv)))
      |>.andThen (Step.field (set := fun (t : TxnOffsetCommitResponsePartition28) x => { t with ErrorCode := x }) (read_int16 (Fields.Valid.head (Fields.Valid.tail h) hv))) : Step _ _ _) t0)
    (Writes.eq (fs := Protocol.TxnOffsetCommitResponsePartition) (v := v) (x := x) <| Writes.all hv rfl <| Writes.all hv rfl <| Writes.done).symm rfl

theorem TxnOffsetCommitResponsePartition28.parses {v : Int16} (hv : 0 ≤ v) (t0 : TxnOffsetCommitResponsePartition28) :
    Parses (TxnOffsetCommitResponsePartition28.decode v t0) ((Ty.struct Protocol.TxnOffsetCommitResponsePartition).parse v) (fun x => TxnOffsetCommitResponsePartition28.of v x t0) :=
  FParses.parses (fs := Protocol.TxnOffsetCommitResponsePartition)
    (FParses.field hv (set := fun (t : TxnOffsetCommitResponsePartition28) x => { t with PartitionIndex := x }) par_int32 <|
    FParses.field hv (set := fun (t : TxnOffsetCommitResponsePartition28) x => { t with ErrorCode := x }) par_int16 <|
    FParses.done)
    (by simp only [TxnOffsetCommitResponsePartition28.decode, Dec.andThen_nop]) (Fields.distinct_nodup _ (by decide +kernel)) (fun _ _ => rfl) t0

theorem TxnOffsetCommitResponsePartition28.shown {v : Int16} (hv : 0 ≤ v) (x : Val) (h : Protocol.TxnOffsetCommitResponsePartition.Typed v x) :
    Protocol.TxnOffsetCommitResponsePartition.shows v x (TxnOffsetCommitResponsePartition28.val (TxnOffsetCommitResponsePartition28.of v x {})) = true :=
  Shows.all hv (show_int32 (Fields.Typed.head (h) hv)) <|
    Shows.all hv (show_int16 (Fields.Typed.head (Fields.Typed.tail h) hv)) <|
    rfl

/-- `TxnOffsetCommitResponseTopic28` as a value of the protocol. -/
def TxnOffsetCommitResponseTopic28.val (t : TxnOffsetCommitResponseTopic28) : Val :=
  .struct [("Name", .str (some t.Name)),
    ("Partitions", ofStructs TxnOffsetCommitResponsePartition28.val t.Partitions)]

theorem TxnOffsetCommitResponseTopic28.conforms {v : Int16} (hv : 0 ≤ v) (t : TxnOffsetCommitResponseTopic28) :
    Protocol.TxnOffsetCommitResponseTopic.wire false v (TxnOffsetCommitResponseTopic28.val t) = TxnOffsetCommitResponseTopic28.wire v t :=
  Writes.eq <|
    Writes.all hv (Protocol.wire_string v t.Name) <|
    Writes.all hv (Protocol.wire_structs v (TxnOffsetCommitResponsePartition28.conforms hv) t.Partitions) <|
    Writes.done

/-- There is nothing that may not be nil. -/
def TxnOffsetCommitResponseTopic28.Full (_v : Int16) (_t : TxnOffsetCommitResponseTopic28) : Prop := True

theorem TxnOffsetCommitResponseTopic28.valid {v : Int16} (hv : 0 ≤ v) (t : TxnOffsetCommitResponseTopic28) (h : t.Fits v) (_hf : t.Full v) :
    Protocol.TxnOffsetCommitResponseTopic.Valid true v (TxnOffsetCommitResponseTopic28.val t) :=
  Valids.all (valid_string (h.Name)) <|
    Valids.all (valid_structs (fun y h hf => TxnOffsetCommitResponsePartition28.valid hv y h hf) (h.Partitions) (fun _ _ => trivial)) <|
    trivial

/-- What `TxnOffsetCommitResponseTopic28` holds after reading the value `x` into `t0`. -/
def TxnOffsetCommitResponseTopic28.of (v : Int16) (x : Val) (t0 : TxnOffsetCommitResponseTopic28) : TxnOffsetCommitResponseTopic28 :=
  { Name := (x.get "Name").toStr,
    Partitions := (x.get "Partitions").toSliceOr (fun y => TxnOffsetCommitResponsePartition28.of v y {}) t0.Partitions }

theorem TxnOffsetCommitResponseTopic28.decodes {v : Int16} (hv : 0 ≤ v) (x : Val) (h : Protocol.TxnOffsetCommitResponseTopic.Valid false v x) (t0 : TxnOffsetCommitResponseTopic28) :
    Reads (TxnOffsetCommitResponseTopic28.decode v t0) (Protocol.TxnOffsetCommitResponseTopic.wire false v x) (TxnOffsetCommitResponseTopic28.of v x t0) :=
  Reads.congr (((Step.field (set := fun (t : TxnOffsetCommitResponseTopic28) x => { t with Name := x }) (read_string (Fields.Valid.head (h) hv)))
      |>.andThen (Step.readStructs (get := fun (t : TxnOffsetCommitResponseTopic28) => t.Partitions) (set := fun (t : TxnOffsetCommitResponseTopic28) x => { t with Partitions := x }) (fun y hy => TxnOffsetCommitResponsePartition28.decodes hv y hy {}) (Fields.Valid.head (Fields.Valid.tail h) hv)) : Step _ _ _) t0)
    (Writes.eq (fs := Protocol.TxnOffsetCommitResponseTopic) (v := v) (x := x) <| Writes.all hv rfl <| Writes.all hv rfl <| Writes.done).symm rfl

theorem TxnOffsetCommitResponseTopic28.parses {v : Int16} (hv : 0 ≤ v) (t0 : TxnOffsetCommitResponseTopic28) :
    Parses (TxnOffsetCommitResponseTopic28.decode v t0) ((Ty.struct Protocol.TxnOffsetCommitResponseTopic).parse v) (fun x => TxnOffsetCommitResponseTopic28.of v x t0) :=
  FParses.parses (fs := Protocol.TxnOffsetCommitResponseTopic)
    (FParses.field hv (set := fun (t : TxnOffsetCommitResponseTopic28) x => { t with Name := x }) par_string <|
    FParses.structs hv (get := fun (t : TxnOffsetCommitResponseTopic28) => t.Partitions) (set := fun (t : TxnOffsetCommitResponseTopic28) x => { t with Partitions := x }) (TxnOffsetCommitResponsePartition28.parses hv {}) <|
    FParses.done)
    (by simp only [TxnOffsetCommitResponseTopic28.decode, Dec.andThen_nop]) (Fields.distinct_nodup _ (by decide +kernel)) (fun _ _ => rfl) t0

theorem TxnOffsetCommitResponseTopic28.shown {v : Int16} (hv : 0 ≤ v) (x : Val) (h : Protocol.TxnOffsetCommitResponseTopic.Typed v x) :
    Protocol.TxnOffsetCommitResponseTopic.shows v x (TxnOffsetCommitResponseTopic28.val (TxnOffsetCommitResponseTopic28.of v x {})) = true :=
  Shows.all hv (show_string (Fields.Typed.head (h) hv)) <|
    Shows.all hv (show_structs (f := TxnOffsetCommitResponsePartition28.val) (g := fun y => TxnOffsetCommitResponsePartition28.of v y {}) (fun y hy => TxnOffsetCommitResponsePartition28.shown hv y hy) (Fields.Typed.head (Fields.Typed.tail h) hv)) <|
    rfl

/-- `TxnOffsetCommitResponse` as a value of the protocol. -/
def TxnOffsetCommitResponse.val (t : TxnOffsetCommitResponse) : Val :=
  .struct [("ThrottleTimeMs", .int32 t.ThrottleTimeMs),
    ("Topics", ofStructs TxnOffsetCommitResponseTopic28.val t.Topics)]

theorem TxnOffsetCommitResponse.conforms {v : Int16} (hv : 0 ≤ v) (t : TxnOffsetCommitResponse) :
    Protocol.TxnOffsetCommitResponse.wire false v (TxnOffsetCommitResponse.val t) = TxnOffsetCommitResponse.wire v t :=
  Writes.eq <|
    Writes.all hv (Protocol.wire_int32 v t.ThrottleTimeMs) <|
    Writes.all hv (Protocol.wire_structs v (TxnOffsetCommitResponseTopic28.conforms hv) t.Topics) <|
    Writes.done

/-- There is nothing that may not be nil. -/
def TxnOffsetCommitResponse.Full (_v : Int16) (_t : TxnOffsetCommitResponse) : Prop := True

theorem TxnOffsetCommitResponse.valid {v : Int16} (hv : 0 ≤ v) (t : TxnOffsetCommitResponse) (h : t.Fits v) (_hf : t.Full v) :
    Protocol.TxnOffsetCommitResponse.Valid true v (TxnOffsetCommitResponse.val t) :=
  Valids.all trivial <|
    Valids.all (valid_structs (fun y h hf => TxnOffsetCommitResponseTopic28.valid hv y h hf) (h.Topics) (fun _ _ => trivial)) <|
    trivial

/-- What `TxnOffsetCommitResponse` holds after reading the value `x` into `t0`. -/
def TxnOffsetCommitResponse.of (v : Int16) (x : Val) (t0 : TxnOffsetCommitResponse) : TxnOffsetCommitResponse :=
  { ThrottleTimeMs := (x.get "ThrottleTimeMs").toInt32,
    Topics := (x.get "Topics").toSliceOr (fun y => TxnOffsetCommitResponseTopic28.of v y {}) t0.Topics }

theorem TxnOffsetCommitResponse.decodes {v : Int16} (hv : 0 ≤ v) (x : Val) (h : Protocol.TxnOffsetCommitResponse.Valid false v x) (t0 : TxnOffsetCommitResponse) :
    Reads (TxnOffsetCommitResponse.decode v t0) (Protocol.TxnOffsetCommitResponse.wire false v x) (TxnOffsetCommitResponse.of v x t0) :=
  Reads.congr (((Step.field (set := fun (t : TxnOffsetCommitResponse) x => { t with ThrottleTimeMs := x }) (read_int32 (Fields.Valid.head (h) hv)))
      |>.andThen (Step.readStructs (get := fun (t : TxnOffsetCommitResponse) => t.Topics) (set := fun (t : TxnOffsetCommitResponse) x => { t with Topics := x }) (fun y hy => TxnOffsetCommitResponseTopic28.decodes hv y hy {}) (Fields.Valid.head (Fields.Valid.tail h) hv)) : Step _ _ _) t0)
    (Writes.eq (fs := Protocol.TxnOffsetCommitResponse) (v := v) (x := x) <| Writes.all hv rfl <| Writes.all hv rfl <| Writes.done).symm rfl

theorem TxnOffsetCommitResponse.parses {v : Int16} (hv : 0 ≤ v) (t0 : TxnOffsetCommitResponse) :
    Parses (TxnOffsetCommitResponse.decode v t0) ((Ty.struct Protocol.TxnOffsetCommitResponse).parse v) (fun x => TxnOffsetCommitResponse.of v x t0) :=
  FParses.parses (fs := Protocol.TxnOffsetCommitResponse)
    (FParses.field hv (set := fun (t : TxnOffsetCommitResponse) x => { t with ThrottleTimeMs := x }) par_int32 <|
    FParses.structs hv (get := fun (t : TxnOffsetCommitResponse) => t.Topics) (set := fun (t : TxnOffsetCommitResponse) x => { t with Topics := x }) (TxnOffsetCommitResponseTopic28.parses hv {}) <|
    FParses.done)
    (by simp only [TxnOffsetCommitResponse.decode, Dec.andThen_nop]) (Fields.distinct_nodup _ (by decide +kernel)) (fun _ _ => rfl) t0

theorem TxnOffsetCommitResponse.shown {v : Int16} (hv : 0 ≤ v) (x : Val) (h : Protocol.TxnOffsetCommitResponse.Typed v x) :
    Protocol.TxnOffsetCommitResponse.shows v x (TxnOffsetCommitResponse.val (TxnOffsetCommitResponse.of v x {})) = true :=
  Shows.all hv (show_int32 (Fields.Typed.head (h) hv)) <|
    Shows.all hv (show_structs (f := TxnOffsetCommitResponseTopic28.val) (g := fun y => TxnOffsetCommitResponseTopic28.of v y {}) (fun y hy => TxnOffsetCommitResponseTopic28.shown hv y hy) (Fields.Typed.head (Fields.Typed.tail h) hv)) <|
    rfl

end Kafka.Msg
