import Verif.Protocol.Conform.OffsetForLeaderEpoch
/-!
Generated by tools/gen_protocol.py: the OffsetForLeaderEpoch request is read as the protocol says.
-/
namespace Kafka.Msg

open Protocol

/-- What `OffsetForLeaderPartition23` holds after reading the value `x` into `t0`. -/
def OffsetForLeaderPartition23.of (v : Int16) (x : Val) (t0 : OffsetForLeaderPartition23) : OffsetForLeaderPartition23 :=
  { PartitionIndex := (x.get "PartitionIndex").toInt32,
    CurrentLeaderEpoch := if v ≥ 2 then (x.get "CurrentLeaderEpoch").toInt32 else t0.CurrentLeaderEpoch,
    LeaderEpoch := (x.get "LeaderEpoch").toInt32 }

theorem OffsetForLeaderPartition23.decodes {v : Int16} (hv : 0 ≤ v) (x : Val) (h : Protocol.OffsetForLeaderPartition.Valid false v x) (t0 : OffsetForLeaderPartition23) :
    Reads (OffsetForLeaderPartition23.decode v t0) (Protocol.OffsetForLeaderPartition.wire false v x) (OffsetForLeaderPartition23.of v x t0) :=
  Reads.congr (((Step.field (set := fun (t : OffsetForLeaderPartition23) x => { t with PartitionIndex := x }) (read_int32 (Fields.Valid.head (h) hv)))
      |>.andThen (Step.optField (c := v ≥ 2) (set := fun (t : OffsetForLeaderPartition23) x => { t with CurrentLeaderEpoch := x }) (·.CurrentLeaderEpoch) (fun _ => rfl) fun hc => read_int32 (Fields.Valid.head (Fields.Valid.tail h) hc))
      |>.andThen (Step.field (set := fun (t : OffsetForLeaderPartition23) x => { t with LeaderEpoch := x }) (read_int32 (Fields.Valid.head (Fields.Valid.tail (Fields.Valid.tail h)) hv))) : Step _ _ _) t0)
    (Writes.eq (fs := Protocol.OffsetForLeaderPartition) (v := v) (x := x) <| Writes.all hv rfl <| Writes.since rfl <| Writes.all hv rfl <| Writes.done).symm rfl

theorem OffsetForLeaderPartition23.parses {v : Int16} (hv : 0 ≤ v) (t0 : OffsetForLeaderPartition23) :
    Parses (OffsetForLeaderPartition23.decode v t0) ((Ty.struct Protocol.OffsetForLeaderPartition).parse v) (fun x => OffsetForLeaderPartition23.of v x t0) :=
  FParses.parses (fs := Protocol.OffsetForLeaderPartition)
    (FParses.field hv (set := fun (t : OffsetForLeaderPartition23) x => { t with PartitionIndex := x }) par_int32 <|
    FParses.optField (c := v ≥ 2) Iff.rfl (set := fun (t : OffsetForLeaderPartition23) x => { t with CurrentLeaderEpoch := x }) (·.CurrentLeaderEpoch) (fun _ => rfl) par_int32 <|
    FParses.field hv (set := fun (t : OffsetForLeaderPartition23) x => { t with LeaderEpoch := x }) par_int32 <|
    FParses.done)
    (by simp only [OffsetForLeaderPartition23.decode, Dec.andThen_assoc, Dec.andThen_nop]) (Fields.distinct_nodup _ (by decide +kernel)) (fun _ _ => rfl) t0

theorem OffsetForLeaderPartition23.shown {v : Int16} (hv : 0 ≤ v) (x : Val) (h : Protocol.OffsetForLeaderPartition.Typed v x) :
    Protocol.OffsetForLeaderPartition.shows v x (OffsetForLeaderPartition23.val (OffsetForLeaderPartition23.of v x {})) = true :=
  Shows.all hv (show_int32 (Fields.Typed.head (h) hv)) <|
    Shows.since (.int32) rfl (fun hc => show_int32 (Fields.Typed.head (Fields.Typed.tail h) hc)) rfl <|
    Shows.all hv (show_int32 (Fields.Typed.head (Fields.Typed.tail (Fields.Typed.tail h)) hv)) <|
    rfl

/-- What `OffsetForLeaderTopic23` holds after reading the value `x` into `t0`. -/
def OffsetForLeaderTopic23.of (v : Int16) (x : Val) (t0 : OffsetForLeaderTopic23) : OffsetForLeaderTopic23 :=
  { Name := (x.get "Name").toStr,
    Partitions := (x.get "Partitions").toSliceOr (fun y => OffsetForLeaderPartition23.of v y {}) t0.Partitions }

theorem OffsetForLeaderTopic23.decodes {v : Int16} (hv : 0 ≤ v) (x : Val) (h : Protocol.OffsetForLeaderTopic.Valid false v x) (t0 : OffsetForLeaderTopic23) :
    Reads (OffsetForLeaderTopic23.decode v t0) (Protocol.OffsetForLeaderTopic.wire false v x) (OffsetForLeaderTopic23.of v x t0) :=
  Reads.congr (((Step.field (set := fun (t : OffsetForLeaderTopic23) x => { t with Name := x }) (read_string (Fields.Valid.head (h) hv)))
      |>.andThen (Step.readStructs (get := fun (t : OffsetForLeaderTopic23) => t.Partitions) (set := fun (t : OffsetForLeaderTopic23) x => { t with Partitions := x }) (fun y hy => OffsetForLeaderPartition23.decodes hv y hy {}) (Fields.Valid.head (Fields.Valid.tail h) hv)) : Step _ _ _) t0)
    (Writes.eq (fs := Protocol.OffsetForLeaderTopic) (v := v) (x := x) <| Writes.all hv rfl <| Writes.all hv rfl <| Writes.done).symm rfl

theorem OffsetForLeaderTopic23.parses {v : Int16} (hv : 0 ≤ v) (t0 : OffsetForLeaderTopic23) :
    Parses (OffsetForLeaderTopic23.decode v t0) ((Ty.struct Protocol.OffsetForLeaderTopic).parse v) (fun x => OffsetForLeaderTopic23.of v x t0) :=
  FParses.parses (fs := Protocol.OffsetForLeaderTopic)
    (FParses.field hv (set := fun (t : OffsetForLeaderTopic23) x => { t with Name := x }) par_string <|
    FParses.structs hv (get := fun (t : OffsetForLeaderTopic23) => t.Partitions) (set := fun (t : OffsetForLeaderTopic23) x => { t with Partitions := x }) (OffsetForLeaderPartition23.parses hv {}) <|
    FParses.done)
    (by simp only [OffsetForLeaderTopic23.decode, Dec.andThen_nop]) (Fields.distinct_nodup _ (by decide +kernel)) (fun _ _ => rfl) t0

theorem OffsetForLeaderTopic23.shown {v : Int16} (hv : 0 ≤ v) (x : Val) (h : Protocol.OffsetForLeaderTopic.Typed v x) :
    Protocol.OffsetForLeaderTopic.shows v x (OffsetForLeaderTopic23.val (OffsetForLeaderTopic23.of v x {})) = true :=
  Shows.all hv (show_string (Fields.Typed.head (h) hv)) <|
    Shows.all hv (show_structs (f := OffsetForLeaderPartition23.val) (g := fun y => OffsetForLeaderPartition23.of v y {}) (fun y hy => OffsetForLeaderPartition23.shown hv y hy) (Fields.Typed.head (Fields.Typed.tail h) hv)) <|
    rfl

/-- What `OffsetForLeaderEpochRequest` holds after reading the value `x` into `t0`. -/
def OffsetForLeaderEpochRequest.of (v : Int16) (x : Val) (t0 : OffsetForLeaderEpochRequest) : OffsetForLeaderEpochRequest :=
  { ReplicaId := if v ≥ 3 then (x.get "ReplicaId").toInt32 else t0.ReplicaId,
    Topics := (x.get "Topics").toSliceOr (fun y => OffsetForLeaderTopic23.of v y {}) t0.Topics }

theorem OffsetForLeaderEpochRequest.decodes {v : Int16} (hv : 0 ≤ v) (x : Val) (h : Protocol.OffsetForLeaderEpochRequest.Valid false v x) (t0 : OffsetForLeaderEpochRequest) :
    Reads (OffsetForLeaderEpochRequest.decode v t0) (Protocol.OffsetForLeaderEpochRequest.wire false v x) (OffsetForLeaderEpochRequest.of v x t0) :=
  Reads.congr (((Step.optField (c := v ≥ 3) (set := fun (t : OffsetForLeaderEpochRequest) x => { t with ReplicaId := x }) (·.ReplicaId) (fun _ => rfl) fun hc => read_int32 (Fields.Valid.head (h) hc))
      |>.andThen (Step.readStructs (get := fun (t : OffsetForLeaderEpochRequest) => t.Topics) (set := fun (t : OffsetForLeaderEpochRequest) x => { t with Topics := x }) (fun y hy => OffsetForLeaderTopic23.decodes hv y hy {}) (Fields.Valid.head (Fields.Valid.tail h) hv)) : Step _ _ _) t0)
    (Writes.eq (fs := Protocol.OffsetForLeaderEpochRequest) (v := v) (x := x) <| Writes.since rfl <| Writes.all hv rfl <| Writes.done).symm rfl

theorem OffsetForLeaderEpochRequest.parses {v : Int16} (hv : 0 ≤ v) (t0 : OffsetForLeaderEpochRequest) :
    Parses (OffsetForLeaderEpochRequest.decode v t0) ((Ty.struct Protocol.OffsetForLeaderEpochRequest).parse v) (fun x => OffsetForLeaderEpochRequest.of v x t0) :=
  FParses.parses (fs := Protocol.OffsetForLeaderEpochRequest)
    (FParses.optField (c := v ≥ 3) Iff.rfl (set := fun (t : OffsetForLeaderEpochRequest) x => { t with ReplicaId := x }) (·.ReplicaId) (fun _ => rfl) par_int32 <|
    FParses.structs hv (get := fun (t : OffsetForLeaderEpochRequest) => t.Topics) (set := fun (t : OffsetForLeaderEpochRequest) x => { t with Topics := x }) (OffsetForLeaderTopic23.parses hv {}) <|
    FParses.done)
    (by simp only [OffsetForLeaderEpochRequest.decode, Dec.andThen_nop]) (Fields.distinct_nodup _ (by decide +kernel)) (fun _ _ => rfl) t0

theorem OffsetForLeaderEpochRequest.shown {v : Int16} (hv : 0 ≤ v) (x : Val) (h : Protocol.OffsetForLeaderEpochRequest.Typed v x) :
    Protocol.OffsetForLeaderEpochRequest.shows v x (OffsetForLeaderEpochRequest.val (OffsetForLeaderEpochRequest.of v x {})) = true :=
  Shows.since (.int32) rfl (fun hc => show_int32 (Fields.Typed.head (h) hc)) rfl <|
    Shows.all hv (show_structs (f := OffsetForLeaderTopic23.val) (g := fun y => OffsetForLeaderTopic23.of v y {}) (fun y hy => OffsetForLeaderTopic23.shown hv y hy) (Fields.Typed.head (Fields.Typed.tail h) hv)) <|
    rfl

end Kafka.Msg
