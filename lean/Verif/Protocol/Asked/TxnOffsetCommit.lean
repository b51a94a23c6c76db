import Verif.Protocol.Conform.TxnOffsetCommit
/-!
Generated by tools/gen_protocol.py: the TxnOffsetCommit request is read as the protocol says.
-/
namespace Kafka.Msg

open Protocol

/-- What `TxnOffsetCommitRequestPartition28` holds after reading the value `x` into `t0`. -/
def TxnOffsetCommitRequestPartition28.of (v : Int16) (x : Val) (t0 : TxnOffsetCommitRequestPartition28) : TxnOffsetCommitRequestPartition28 :=
  { PartitionIndex := (x.get "PartitionIndex").toInt32,
    CommittedOffset := (x.get "CommittedOffset").toInt64,
    CommittedLeaderEpoch := if v ≥ 2 then (x.get "CommittedLeaderEpoch").toInt32 else t0.CommittedLeaderEpoch,
    CommittedMetadata := (x.get "CommittedMetadata").toStr }

theorem TxnOffsetCommitRequestPartition28.decodes {v : Int16} (hv : 0 ≤ v) (x : Val) (h : Protocol.TxnOffsetCommitRequestPartition.Valid false v x) (t0 : TxnOffsetCommitRequestPartition28) :
    Reads (TxnOffsetCommitRequestPartition28.decode v t0) (Protocol.TxnOffsetCommitRequestPartition.wire false v x) (TxnOffsetCommitRequestPartition28.of v x t0) :=
  Reads.congr (((Step.field (set := fun (t : TxnOffsetCommitRequestPartition28) x => { t with PartitionIndex := x }) (read_int32 (Fields.Valid.head (h) hv)))
      |>.andThen (Step.field (set := fun (t : TxnOffsetCommitRequestPartition28) x => { t with CommittedOffset := x }) (read_int64 (Fields.Valid.head (Fields.Valid.tail h) hv)))
      |>.andThen (Step.optField (c := v ≥ 2) (set := fun (t : TxnOffsetCommitRequestPartition28) x => { t with CommittedLeaderEpoch := x }) (·.CommittedLeaderEpoch) (fun _ => rfl) fun hc => read_int32 (Fields.Valid.head (Fields.Valid.tail (Fields.Valid.tail h)) hc))
      |>.andThen (Step.field (set := fun (t : TxnOffsetCommitRequestPartition28) x => { t with CommittedMetadata := x }) (read_string (Fields.Valid.head (Fields.Valid.tail (Fields.Valid.tail (Fields.Valid.tail h))) hv))) : Step _ _ _) t0)
    (Writes.eq (fs := Protocol.TxnOffsetCommitRequestPartition) (v := v) (x := x) <| Writes.all hv rfl <| Writes.all hv rfl <| Writes.since rfl <| Writes.all hv rfl <| Writes.done).symm rfl

theorem TxnOffsetCommitRequestPartition28.parses {v : Int16} (hv : 0 ≤ v) (t0 : TxnOffsetCommitRequestPartition28) :
    Parses (TxnOffsetCommitRequestPartition28.decode v t0) ((Ty.struct Protocol.TxnOffsetCommitRequestPartition).parse v) (fun x => TxnOffsetCommitRequestPartition28.of v x t0) :=
  FParses.parses (fs := Protocol.TxnOffsetCommitRequestPartition)
    (FParses.field hv (set := fun (t : TxnOffsetCommitRequestPartition28) x => { t with PartitionIndex := x }) par_int32 <|
    FParses.field hv (set := fun (t : TxnOffsetCommitRequestPartition28) x => { t with CommittedOffset := x }) par_int64 <|
    FParses.optField (c := v ≥ 2) Iff.rfl (set := fun (t : TxnOffsetCommitRequestPartition28) x => { t with CommittedLeaderEpoch := x }) (·.CommittedLeaderEpoch) (fun _ => rfl) par_int32 <|
    FParses.field hv (set := fun (t : TxnOffsetCommitRequestPartition28) x => { t with CommittedMetadata := x }) par_string <|
    FParses.done)
    (by simp only [TxnOffsetCommitRequestPartition28.decode, Dec.andThen_assoc, Dec.andThen_nop]) (Fields.distinct_nodup _ (by decide +kernel)) (fun _ _ => rfl) t0

theorem TxnOffsetCommitRequestPartition28.shown {v : Int16} (hv : 0 ≤ v) (x : Val) (h : Protocol.TxnOffsetCommitRequestPartition.Typed v x) :
    Protocol.TxnOffsetCommitRequestPartition.shows v x (TxnOffsetCommitRequestPartition28.val (TxnOffsetCommitRequestPartition28.of v x {})) = true :=
  Shows.all hv (show_int32 (Fields.Typed.head (h) hv)) <|
    Shows.all hv (show_int64 (Fields.Typed.head (Fields.Typed.tail h) hv)) <|
    Shows.since (.int32) rfl (fun hc => show_int32 (Fields.Typed.head (Fields.Typed.tail (Fields.Typed.tail h)) hc)) rfl <|
    Shows.all hv (show_string (Fields.Typed.head (Fields.Typed.tail (Fields.Typed.tail (Fields.Typed.tail h))) hv)) <|
    rfl

/-- What `TxnOffsetCommitRequestTopic28` holds after reading the value `x` into `t0`. -/
def TxnOffsetCommitRequestTopic28.of (v : Int16) (x : Val) (t0 : TxnOffsetCommitRequestTopic28) : TxnOffsetCommitRequestTopic28 :=
  { Name := (x.get "Name").toStr,
    Partitions := (x.get "Partitions").toSliceOr (fun y => TxnOffsetCommitRequestPartition28.of v y {}) t0.Partitions }

theorem TxnOffsetCommitRequestTopic28.decodes {v : Int16} (hv : 0 ≤ v) (x : Val) (h : Protocol.TxnOffsetCommitRequestTopic.Valid false v x) (t0 : TxnOffsetCommitRequestTopic28) :
    Reads (TxnOffsetCommitRequestTopic28.decode v t0) (Protocol.TxnOffsetCommitRequestTopic.wire false v x) (TxnOffsetCommitRequestTopic28.of v x t0) :=
  Reads.congr (((Step.field (set := fun (t : TxnOffsetCommitRequestTopic28) x => { t with Name := x }) (read_string (Fields.Valid.head (h) hv)))
      |>.andThen (Step.readStructs (get := fun (t : TxnOffsetCommitRequestTopic28) => t.Partitions) (set := fun (t : TxnOffsetCommitRequestTopic28) x => { t with Partitions := x }) (fun y hy => TxnOffsetCommitRequestPartition28.decodes hv y hy {}) (Fields.Valid.head (Fields.Valid.tail h) hv)) : Step _ _ _) t0)
    (Writes.eq (fs := Protocol.TxnOffsetCommitRequestTopic) (v := v) (x := x) <| Writes.all hv rfl <| Writes.all hv rfl <| Writes.done).symm rfl

theorem TxnOffsetCommitRequestTopic28.parses {v : Int16} (hv : 0 ≤ v) (t0 : TxnOffsetCommitRequestTopic28) :
    Parses (TxnOffsetCommitRequestTopic28.decode v t0) ((Ty.struct Protocol.TxnOffsetCommitRequestTopic).parse v) (fun x => TxnOffsetCommitRequestTopic28.of v x t0) :=
  FParses.parses (fs := Protocol.TxnOffsetCommitRequestTopic)
    (FParses.field hv (set := fun (t : TxnOffsetCommitRequestTopic28) x => { t with Name := x }) par_string <|
    FParses.structs hv (get := fun (t : TxnOffsetCommitRequestTopic28) => t.Partitions) (set := fun (t : TxnOffsetCommitRequestTopic28) x => { t with Partitions := x }) (TxnOffsetCommitRequestPartition28.parses hv {}) <|
    FParses.done)
    (by simp only [TxnOffsetCommitRequestTopic28.decode, Dec.andThen_nop]) (Fields.distinct_nodup _ (by decide +kernel)) (fun _ _ => rfl) t0

theorem TxnOffsetCommitRequestTopic28.shown {v : Int16} (hv : 0 ≤ v) (x : Val) (h : Protocol.TxnOffsetCommitRequestTopic.Typed v x) :
    Protocol.TxnOffsetCommitRequestTopic.shows v x (TxnOffsetCommitRequestTopic28.val (TxnOffsetCommitRequestTopic28.of v x {})) = true :=
  Shows.all hv (show_string (Fields.Typed.head (h) hv)) <|
    Shows.all hv (show_structs (f := TxnOffsetCommitRequestPartition28.val) (g := fun y => TxnOffsetCommitRequestPartition28.of v y {}) (fun y hy => TxnOffsetCommitRequestPartition28.shown hv y hy) (Fields.Typed.head (Fields.Typed.tail h) hv)) <|
    rfl

/-- What `TxnOffsetCommitRequest` holds after reading the value `x` into `t0`. -/
def TxnOffsetCommitRequest.of (v : Int16) (x : Val) (t0 : TxnOffsetCommitRequest) : TxnOffsetCommitRequest :=
  { TransactionalId := (x.get "TransactionalId").toStr,
    GroupId := (x.get "GroupId").toStr,
    ProducerId := (x.get "ProducerId").toInt64,
    ProducerEpoch := (x.get "ProducerEpoch").toInt16,
    Topics := (x.get "Topics").toSliceOr (fun y => TxnOffsetCommitRequestTopic28.of v y {}) t0.Topics }

theorem TxnOffsetCommitRequest.decodes {v : Int16} (hv : 0 ≤ v) (x : Val) (h : Protocol.TxnOffsetCommitRequest.Valid false v x) (t0 : TxnOffsetCommitRequest) :
    Reads (TxnOffsetCommitRequest.decode v t0) (Protocol.TxnOffsetCommitRequest.wire false v x) (TxnOffsetCommitRequest.of v x t0) :=
  Reads.congr (((Step.field (set := fun (t : TxnOffsetCommitRequest) x => { t with TransactionalId := x }) (read_string (Fields.Valid.head (h) hv)))
      |>.andThen (Step.field (set := fun (t : TxnOffsetCommitRequest) x => { t with GroupId := x }) (read_string (Fields.Valid.head (Fields.Valid.tail h) hv)))
      |>.andThen (Step.field (set := fun (t : TxnOffsetCommitRequest) x => { t with ProducerId := x }) (read_int64 (Fields.Valid.head (Fields.Valid.tail (Fields.Valid.tail h)) hv)))
      |>.andThen (Step.field (set := fun (t : TxnOffsetCommitRequest) x => { t with ProducerEpoch := x }) (read_int16 (Fields.Valid.head (Fields.Valid.tail (Fields.Valid.tail (Fields.Valid.tail h))) hv)))
      |>.andThen (Step.readStructs (get := fun (t : TxnOffsetCommitRequest) => t.Topics) (set := fun (t : TxnOffsetCommitRequest) x => { t with Topics := x }) (fun y hy => TxnOffsetCommitRequestTopic28.decodes hv y hy {}) (Fields.Valid.head (Fields.Valid.tail (Fields.Valid.tail (Fields.Valid.tail (Fields.Valid.tail h)))) hv)) : Step _ _ _) t0)
    (Writes.eq (fs := Protocol.TxnOffsetCommitRequest) (v := v) (x := x) <| Writes.all hv rfl <| Writes.all hv rfl <| Writes.all hv rfl <| Writes.all hv rfl <| Writes.all hv rfl <| Writes.done).symm rfl

theorem TxnOffsetCommitRequest.parses {v : Int16} (hv : 0 ≤ v) (t0 : TxnOffsetCommitRequest) :
    Parses (TxnOffsetCommitRequest.decode v t0) ((Ty.struct Protocol.TxnOffsetCommitRequest).parse v) (fun x => TxnOffsetCommitRequest.of v x t0) :=
  FParses.parses (fs := Protocol.TxnOffsetCommitRequest)
    (FParses.field hv (set := fun (t : TxnOffsetCommitRequest) x => { t with TransactionalId := x }) par_string <|
    FParses.field hv (set := fun (t : TxnOffsetCommitRequest) x => { t with GroupId := x }) par_string <|
    FParses.field hv (set := fun (t : TxnOffsetCommitRequest) x => { t with ProducerId := x }) par_int64 <|
    FParses.field hv (set := fun (t : TxnOffsetCommitRequest) x => { t with ProducerEpoch := x }) par_int16 <|
    FParses.structs hv (get := fun (t : TxnOffsetCommitRequest) => t.Topics) (set := fun (t : TxnOffsetCommitRequest) x => { t with Topics := x }) (TxnOffsetCommitRequestTopic28.parses hv {}) <|
    FParses.done)
    (by simp only [TxnOffsetCommitRequest.decode, Dec.andThen_assoc, Dec.andThen_nop]) (Fields.distinct_nodup _ (by decide +kernel)) (fun _ _ => rfl) t0

theorem TxnOffsetCommitRequest.shown {v : Int16} (hv : 0 ≤ v) (x : Val) (h : Protocol.TxnOffsetCommitRequest.Typed v x) :
    Protocol.TxnOffsetCommitRequest.shows v x (TxnOffsetCommitRequest.val (TxnOffsetCommitRequest.of v x {})) = true :=
  Shows.all hv (show_string (Fields.Typed.head (h) hv)) <|
    Shows.all hv (show_string (Fields.Typed.head (Fields.Typed.tail h) hv)) <|
    Shows.all hv (show_int64 (Fields.Typed.head (Fields.Typed.tail (Fields.Typed.tail h)) hv)) <|
    Shows.all hv (show_int16 (Fields.Typed.head (Fields.Typed.tail (Fields.Typed.tail (Fields.Typed.tail h))) hv)) <|
    Shows.all hv (show_structs (f := TxnOffsetCommitRequestTopic28.val) (g := fun y => TxnOffsetCommitRequestTopic28.of v y {}) (fun y hy => TxnOffsetCommitRequestTopic28.shown hv y hy) (Fields.Typed.head (Fields.Typed.tail (Fields.Typed.tail (Fields.Typed.tail (Fields.Typed.tail h)))) hv)) <|
    rfl

end Kafka.Msg
