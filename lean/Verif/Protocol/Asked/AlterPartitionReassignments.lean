import Verif.Protocol.Conform.AlterPartitionReassignments
/-!
Generated by tools/gen_protocol.py: the AlterPartitionReassignments request is read as the protocol says.
-/
namespace Kafka.Msg

open Protocol

/-- What `ReassignablePartition45` holds after reading the value `x` into `t0`. -/
def ReassignablePartition45.of (_v : Int16) (x : Val) (_t0 : ReassignablePartition45) : ReassignablePartition45 :=
  { PartitionIndex := (x.get "PartitionIndex").toInt32,
    Replicas := (x.get "Replicas").toSlice Val.toInt32 }

theorem ReassignablePartition45.decodes {v : Int16} (hv : 0 ≤ v) (x : Val) (h : Protocol.ReassignablePartition.Valid false v x) (t0 : ReassignablePartition45) :
    Reads (ReassignablePartition45.decode v t0) (Protocol.ReassignablePartition.wire false v x) (ReassignablePartition45.of v x t0) :=
  Reads.congr (((Step.field (set := fun (t : ReassignablePartition45) x => { t with PartitionIndex := x }) (read_int32 (Fields.Valid.head (h) hv)))
      |>.andThen (Step.field (set := fun (t : ReassignablePartition45) x => { t with Replicas := x }) (read_int32Array (Fields.Valid.head (Fields.Valid.tail h) hv))) : Step _ _ _) t0)
    (Writes.eq (fs := Protocol.ReassignablePartition) (v := v) (x := x) <| Writes.all hv rfl <| Writes.all hv rfl <| Writes.done).symm rfl

theorem ReassignablePartition45.parses {v : Int16} (hv : 0 ≤ v) (t0 : ReassignablePartition45) :
    Parses (ReassignablePartition45.decode v t0) ((Ty.struct Protocol.ReassignablePartition).parse v) (fun x => ReassignablePartition45.of v x t0) :=
  FParses.parses (fs := Protocol.ReassignablePartition)
    (FParses.field hv (set := fun (t : ReassignablePartition45) x => { t with PartitionIndex := x }) par_int32 <|
    FParses.field hv (set := fun (t : ReassignablePartition45) x => { t with Replicas := x }) par_int32Array <|
    FParses.done)
    (by simp only [ReassignablePartition45.decode, Dec.andThen_nop]) (Fields.distinct_nodup _ (by decide +kernel)) (fun _ _ => rfl) t0

theorem ReassignablePartition45.shown {v : Int16} (hv : 0 ≤ v) (x : Val) (h : Protocol.ReassignablePartition.Typed v x) :
    Protocol.ReassignablePartition.shows v x (ReassignablePartition45.val (ReassignablePartition45.of v x {})) = true :=
  Shows.all hv (show_int32 (Fields.Typed.head (h) hv)) <|
    Shows.all hv (show_int32Array (Fields.Typed.head (Fields.Typed.tail h) hv)) <|
    rfl

/-- What `ReassignableTopic45` holds after reading the value `x` into `t0`. -/
def ReassignableTopic45.of (v : Int16) (x : Val) (t0 : ReassignableTopic45) : ReassignableTopic45 :=
  { Name := (x.get "Name").toStr,
    Partitions := (x.get "Partitions").toSliceOr (fun y => ReassignablePartition45.of v y {}) t0.Partitions }

theorem ReassignableTopic45.decodes {v : Int16} (hv : 0 ≤ v) (x : Val) (h : Protocol.ReassignableTopic.Valid false v x) (t0 : ReassignableTopic45) :
    Reads (ReassignableTopic45.decode v t0) (Protocol.ReassignableTopic.wire false v x) (ReassignableTopic45.of v x t0) :=
  Reads.congr (((Step.field (set := fun (t : ReassignableTopic45) x => { t with Name := x }) (read_string (Fields.Valid.head (h) hv)))
      |>.andThen (Step.readStructs (get := fun (t : ReassignableTopic45) => t.Partitions) (set := fun (t : ReassignableTopic45) x => { t with Partitions := x }) (fun y hy => ReassignablePartition45.decodes hv y hy {}) (Fields.Valid.head (Fields.Valid.tail h) hv)) : Step _ _ _) t0)
    (Writes.eq (fs := Protocol.ReassignableTopic) (v := v) (x := x) <| Writes.all hv rfl <| Writes.all hv rfl <| Writes.done).symm rfl

theorem ReassignableTopic45.parses {v : Int16} (hv : 0 ≤ v) (t0 : ReassignableTopic45) :
    Parses (ReassignableTopic45.decode v t0) ((Ty.struct Protocol.ReassignableTopic).parse v) (fun x => ReassignableTopic45.of v x t0) :=
  FParses.parses (fs := Protocol.ReassignableTopic)
    (FParses.field hv (set := fun (t : ReassignableTopic45) x => { t with Name := x }) par_string <|
    FParses.structs hv (get := fun (t : ReassignableTopic45) => t.Partitions) (set := fun (t : ReassignableTopic45) x => { t with Partitions := x }) (ReassignablePartition45.parses hv {}) <|
    FParses.done)
    (by simp only [ReassignableTopic45.decode, Dec.andThen_nop]) (Fields.distinct_nodup _ (by decide +kernel)) (fun _ _ => rfl) t0

theorem ReassignableTopic45.shown {v : Int16} (hv : 0 ≤ v) (x : Val) (h : Protocol.ReassignableTopic.Typed v x) :
    Protocol.ReassignableTopic.shows v x (ReassignableTopic45.val (ReassignableTopic45.of v x {})) = true :=
  Shows.all hv (show_string (Fields.Typed.head (h) hv)) <|
    Shows.all hv (show_structs (f := ReassignablePartition45.val) (g := fun y => ReassignablePartition45.of v y {}) (fun y hy => ReassignablePartition45.shown hv y hy) (Fields.Typed.head (Fields.Typed.tail h) hv)) <|
    rfl

/-- What `AlterPartitionReassignmentsRequest` holds after reading the value `x` into `t0`. -/
def AlterPartitionReassignmentsRequest.of (v : Int16) (x : Val) (t0 : AlterPartitionReassignmentsRequest) : AlterPartitionReassignmentsRequest :=
  { TimeoutMs := (x.get "TimeoutMs").toInt32,
    Topics := (x.get "Topics").toSliceOr (fun y => ReassignableTopic45.of v y {}) t0.Topics }

theorem AlterPartitionReassignmentsRequest.decodes {v : Int16} (hv : 0 ≤ v) (x : Val) (h : Protocol.AlterPartitionReassignmentsRequest.Valid false v x) (t0 : AlterPartitionReassignmentsRequest) :
    Reads (AlterPartitionReassignmentsRequest.decode v t0) (Protocol.AlterPartitionReassignmentsRequest.wire false v x) (AlterPartitionReassignmentsRequest.of v x t0) :=
  Reads.congr (((Step.field (set := fun (t : AlterPartitionReassignmentsRequest) x => { t with TimeoutMs := x }) (read_int32 (Fields.Valid.head (h) hv)))
      |>.andThen (Step.readStructs (get := fun (t : AlterPartitionReassignmentsRequest) => t.Topics) (set := fun (t : AlterPartitionReassignmentsRequest) x => { t with Topics := x }) (fun y hy => ReassignableTopic45.decodes hv y hy {}) (Fields.Valid.head (Fields.Valid.tail h) hv)) : Step _ _ _) t0)
    (Writes.eq (fs := Protocol.AlterPartitionReassignmentsRequest) (v := v) (x := x) <| Writes.all hv rfl <| Writes.all hv rfl <| Writes.done).symm rfl

theorem AlterPartitionReassignmentsRequest.parses {v : Int16} (hv : 0 ≤ v) (t0 : AlterPartitionReassignmentsRequest) :
    Parses (AlterPartitionReassignmentsRequest.decode v t0) ((Ty.struct Protocol.AlterPartitionReassignmentsRequest).parse v) (fun x => AlterPartitionReassignmentsRequest.of v x t0) :=
  FParses.parses (fs := Protocol.AlterPartitionReassignmentsRequest)
    (FParses.field hv (set := fun (t : AlterPartitionReassignmentsRequest) x => { t with TimeoutMs := x }) par_int32 <|
    FParses.structs hv (get := fun (t : AlterPartitionReassignmentsRequest) => t.Topics) (set := fun (t : AlterPartitionReassignmentsRequest) x => { t with Topics := x }) (ReassignableTopic45.parses hv {}) <|
    FParses.done)
    (by simp only [AlterPartitionReassignmentsRequest.decode, Dec.andThen_nop]) (Fields.distinct_nodup _ (by decide +kernel)) (fun _ _ => rfl) t0

theorem AlterPartitionReassignmentsRequest.shown {v : Int16} (hv : 0 ≤ v) (x : Val) (h : Protocol.AlterPartitionReassignmentsRequest.Typed v x) :
    Protocol.AlterPartitionReassignmentsRequest.shows v x (AlterPartitionReassignmentsRequest.val (AlterPartitionReassignmentsRequest.of v x {})) = true :=
  Shows.all hv (show_int32 (Fields.Typed.head (h) hv)) <|
    Shows.all hv (show_structs (f := ReassignableTopic45.val) (g := fun y => ReassignableTopic45.of v y {}) (fun y hy => ReassignableTopic45.shown hv y hy) (Fields.Typed.head (Fields.Typed.tail h) hv)) <|
    rfl

end Kafka.Msg
