import Verif.Protocol.Conform.ListOffset
/-!
Generated by tools/gen_protocol.py: the ListOffset request is read as the protocol says.
-/
namespace Kafka.Msg

open Protocol

/-- What `ListOffsetPartition2` holds after reading the value `x` into `t0`. -/
def ListOffsetPartition2.of (v : Int16) (x : Val) (t0 : ListOffsetPartition2) : ListOffsetPartition2 :=
  { PartitionIndex := (x.get "PartitionIndex").toInt32,
    CurrentLeaderEpoch := if v ≥ 4 then (x.get "CurrentLeaderEpoch").toInt32 else t0.CurrentLeaderEpoch,
    Timestamp := (x.get "Timestamp").toInt64,
    MaxNumOffsets := if v ≥ 0 ∧ v ≤ 0 then (x.get "MaxNumOffsets").toInt32 else t0.MaxNumOffsets }

theorem ListOffsetPartition2.decodes {v : Int16} (hv : 0 ≤ v) (x : Val) (h : Protocol.ListOffsetPartition.Valid false v x) (t0 : ListOffsetPartition2) :
    Reads (ListOffsetPartition2.decode v t0) (Protocol.ListOffsetPartition.wire false v x) (ListOffsetPartition2.of v x t0) :=
  Reads.congr (((Step.field (set := fun (t : ListOffsetPartition2) x => { t with PartitionIndex := x }) (read_int32 (Fields.Valid.head (h) hv)))
      |>.andThen (Step.optField (c := v ≥ 4) (set := fun (t : ListOffsetPartition2) x => { t with CurrentLeaderEpoch := x }) (·.CurrentLeaderEpoch) (fun _ => rfl) fun hc => read_int32 (Fields.Valid.head (Fields.Valid.tail h) hc))
      |>.andThen (Step.field (set := fun (t : ListOffsetPartition2) x => { t with Timestamp := x }) (read_int64 (Fields.Valid.head (Fields.Valid.tail (Fields.Valid.tail h)) hv)))
      |>.andThen (Step.optField (c := v ≥ 0 ∧ v ≤ 0) (set := fun (t : ListOffsetPartition2) x => { t with MaxNumOffsets := x }) (·.MaxNumOffsets) (fun _ => rfl) fun hc => read_int32 (Fields.Valid.head (Fields.Valid.tail (Fields.Valid.tail (Fields.Valid.tail h))) hc)) : Step _ _ _) t0)
    (Writes.eq (fs := Protocol.ListOffsetPartition) (v := v) (x := x) <| Writes.all hv rfl <| Writes.since rfl <| Writes.all hv rfl <| Writes.between rfl <| Writes.done).symm rfl

theorem ListOffsetPartition2.parses {v : Int16} (hv : 0 ≤ v) (t0 : ListOffsetPartition2) :
    Parses (ListOffsetPartition2.decode v t0) ((Ty.struct Protocol.ListOffsetPartition).parse v) (fun x => ListOffsetPartition2.of v x t0) :=
  FParses.parses (fs := Protocol.ListOffsetPartition)
    (FParses.field hv (set := fun (t : ListOffsetPartition2) x => { t with PartitionIndex := x }) par_int32 <|
    FParses.optField (c := v ≥ 4) Iff.rfl (set := fun (t : ListOffsetPartition2) x => { t with CurrentLeaderEpoch := x }) (·.CurrentLeaderEpoch) (fun _ => rfl) par_int32 <|
    FParses.field hv (set := fun (t : ListOffsetPartition2) x => { t with Timestamp := x }) par_int64 <|
    FParses.optField (c := v ≥ 0 ∧ v ≤ 0) Iff.rfl (set := fun (t : ListOffsetPartition2) x => { t with MaxNumOffsets := x }) (·.MaxNumOffsets) (fun _ => rfl) par_int32 <|
    FParses.done)
    (by simp only [ListOffsetPartition2.decode, Dec.andThen_assoc, Dec.andThen_nop]) (Fields.distinct_nodup _ (by decide +kernel)) (fun _ _ => rfl) t0

theorem ListOffsetPartition2.shown {v : Int16} (hv : 0 ≤ v) (x : Val) (h : Protocol.ListOffsetPartition.Typed v x) :
    Protocol.ListOffsetPartition.shows v x (ListOffsetPartition2.val (ListOffsetPartition2.of v x {})) = true :=
  Shows.all hv (show_int32 (Fields.Typed.head (h) hv)) <|
    Shows.since (.int32) rfl (fun hc => show_int32 (Fields.Typed.head (Fields.Typed.tail h) hc)) rfl <|
    Shows.all hv (show_int64 (Fields.Typed.head (Fields.Typed.tail (Fields.Typed.tail h)) hv)) <|
    Shows.between (.int32) rfl (fun hc => show_int32 (Fields.Typed.head (Fields.Typed.tail (Fields.Typed.tail (Fields.Typed.tail h))) hc)) rfl <|
    rfl

/-- What `ListOffsetTopic2` holds after reading the value `x` into `t0`. -/
def ListOffsetTopic2.of (v : Int16) (x : Val) (t0 : ListOffsetTopic2) : ListOffsetTopic2 :=
  { Name := (x.get "Name").toStr,
    Partitions := (x.get "Partitions").toSliceOr (fun y => ListOffsetPartition2.of v y {}) t0.Partitions }

theorem ListOffsetTopic2.decodes {v : Int16} (hv : 0 ≤ v) (x : Val) (h : Protocol.ListOffsetTopic.Valid false v x) (t0 : ListOffsetTopic2) :
    Reads (ListOffsetTopic2.decode v t0) (Protocol.ListOffsetTopic.wire false v x) (ListOffsetTopic2.of v x t0) :=
  Reads.congr (((Step.field (set := fun (t : ListOffsetTopic2) x => { t with Name := x }) (read_string (Fields.Valid.head (h) hv)))
      |>.andThen (Step.readStructs (get := fun (t : ListOffsetTopic2) => t.Partitions) (set := fun (t : ListOffsetTopic2) x => { t with Partitions := x }) (fun y hy => ListOffsetPartition2.decodes hv y hy {}) (Fields.Valid.head (Fields.Valid.tail h) hv)) : Step _ _ _) t0)
    (Writes.eq (fs := Protocol.ListOffsetTopic) (v := v) (x := x) <| Writes.all hv rfl <| Writes.all hv rfl <| Writes.done).symm rfl

theorem ListOffsetTopic2.parses {v : Int16} (hv : 0 ≤ v) (t0 : ListOffsetTopic2) :
    Parses (ListOffsetTopic2.decode v t0) ((Ty.struct Protocol.ListOffsetTopic).parse v) (fun x => ListOffsetTopic2.of v x t0) :=
  FParses.parses (fs := Protocol.ListOffsetTopic)
    (FParses.field hv (set := fun (t : ListOffsetTopic2) x => { t with Name := x }) par_string <|
    FParses.structs hv (get := fun (t : ListOffsetTopic2) => t.Partitions) (set := fun (t : ListOffsetTopic2) x => { t with Partitions := x }) (ListOffsetPartition2.parses hv {}) <|
    FParses.done)
    (by simp only [ListOffsetTopic2.decode, Dec.andThen_nop]) (Fields.distinct_nodup _ (by decide +kernel)) (fun _ _ => rfl) t0

theorem ListOffsetTopic2.shown {v : Int16} (hv : 0 ≤ v) (x : Val) (h : Protocol.ListOffsetTopic.Typed v x) :
    Protocol.ListOffsetTopic.shows v x (ListOffsetTopic2.val (ListOffsetTopic2.of v x {})) = true :=
  Shows.all hv (show_string (Fields.Typed.head (h) hv)) <|
    Shows.all hv (show_structs (f := ListOffsetPartition2.val) (g := fun y => ListOffsetPartition2.of v y {}) (fun y hy => ListOffsetPartition2.shown hv y hy) (Fields.Typed.head (Fields.Typed.tail h) hv)) <|
    rfl

/-- What `ListOffsetRequest` holds after reading the value `x` into `t0`. -/
def ListOffsetRequest.of (v : Int16) (x : Val) (t0 : ListOffsetRequest) : ListOffsetRequest :=
  { ReplicaId := (x.get "ReplicaId").toInt32,
    IsolationLevel := if v ≥ 2 then (x.get "IsolationLevel").toInt8 else t0.IsolationLevel,
    Topics := (x.get "Topics").toSliceOr (fun y => ListOffsetTopic2.of v y {}) t0.Topics }

theorem ListOffsetRequest.decodes {v : Int16} (hv : 0 ≤ v) (x : Val) (h : Protocol.ListOffsetRequest.Valid false v x) (t0 : ListOffsetRequest) :
    Reads (ListOffsetRequest.decode v t0) (Protocol.ListOffsetRequest.wire false v x) (ListOffsetRequest.of v x t0) :=
  Reads.congr (((Step.field (set := fun (t : ListOffsetRequest) x => { t with ReplicaId := x }) (read_int32 (Fields.Valid.head (h) hv)))
      |>.andThen (Step.optField (c := v ≥ 2) (set := fun (t : ListOffsetRequest) x => { t with IsolationLevel := x }) (·.IsolationLevel) (fun _ => rfl) fun hc => read_int8 (Fields.Valid.head (Fields.Valid.tail h) hc))
      |>.andThen (Step.readStructs (get := fun (t : ListOffsetRequest) => t.Topics) (set := fun (t : ListOffsetRequest) x => { t with Topics := x }) (fun y hy => ListOffsetTopic2.decodes hv y hy {}) (Fields.Valid.head (Fields.Valid.tail (Fields.Valid.tail h)) hv)) : Step _ _ _) t0)
    (Writes.eq (fs := Protocol.ListOffsetRequest) (v := v) (x := x) <| Writes.all hv rfl <| Writes.since rfl <| Writes.all hv rfl <| Writes.done).symm rfl

theorem ListOffsetRequest.parses {v : Int16} (hv : 0 ≤ v) (t0 : ListOffsetRequest) :
    Parses (ListOffsetRequest.decode v t0) ((Ty.struct Protocol.ListOffsetRequest).parse v) (fun x => ListOffsetRequest.of v x t0) :=
  FParses.parses (fs := Protocol.ListOffsetRequest)
    (FParses.field hv (set := fun (t : ListOffsetRequest) x => { t with ReplicaId := x }) par_int32 <|
    FParses.optField (c := v ≥ 2) Iff.rfl (set := fun (t : ListOffsetRequest) x => { t with IsolationLevel := x }) (·.IsolationLevel) (fun _ => rfl) par_int8 <|
    FParses.structs hv (get := fun (t : ListOffsetRequest) => t.Topics) (set := fun (t : ListOffsetRequest) x => { t with Topics := x }) (ListOffsetTopic2.parses hv {}) <|
    FParses.done)
    (by simp only [ListOffsetRequest.decode, Dec.andThen_assoc, Dec.andThen_nop]) (Fields.distinct_nodup _ (by decide +kernel)) (fun _ _ => rfl) t0

theorem ListOffsetRequest.shown {v : Int16} (hv : 0 ≤ v) (x : Val) (h : Protocol.ListOffsetRequest.Typed v x) :
    Protocol.ListOffsetRequest.shows v x (ListOffsetRequest.val (ListOffsetRequest.of v x {})) = true :=
  Shows.all hv (show_int32 (Fields.Typed.head (h) hv)) <|
    Shows.since (.int8) rfl (fun hc => show_int8 (Fields.Typed.head (Fields.Typed.tail h) hc)) rfl <|
    Shows.all hv (show_structs (f := ListOffsetTopic2.val) (g := fun y => ListOffsetTopic2.of v y {}) (fun y hy => ListOffsetTopic2.shown hv y hy) (Fields.Typed.head (Fields.Typed.tail (Fields.Typed.tail h)) hv)) <|
    rfl

end Kafka.Msg
