import Verif.Protocol.Conform.OffsetDelete
/-!
Generated by tools/gen_protocol.py: the OffsetDelete request is read as the protocol says.
-/
namespace Kafka.Msg

open Protocol

/-- What `OffsetDeleteRequestPartition47` holds after reading the value `x` into `t0`. -/
def OffsetDeleteRequestPartition47.of (_v : Int16) (x : Val) (_t0 : OffsetDeleteRequestPartition47) : OffsetDeleteRequestPartition47 :=
  { PartitionIndex := (x.get "PartitionIndex").toInt32 }

theorem OffsetDeleteRequestPartition47.decodes {v : Int16} (hv : 0 ≤ v) (x : Val) (h : Protocol.OffsetDeleteRequestPartition.Valid false v x) (t0 : OffsetDeleteRequestPartition47) :
    Reads (OffsetDeleteRequestPartition47.decode v t0) (Protocol.OffsetDeleteRequestPartition.wire false v x) (OffsetDeleteRequestPartition47.of v x t0) :=
  Reads.congr (((Step.field (set := fun (t : OffsetDeleteRequestPartition47) x => { t with PartitionIndex := x }) (read_int32 (Fields.Valid.head (h) hv))) : Step _ _ _) t0)
    (Writes.eq (fs := Protocol.OffsetDeleteRequestPartition) (v := v) (x := x) <| Writes.all hv rfl <| Writes.done).symm rfl

theorem OffsetDeleteRequestPartition47.parses {v : Int16} (hv : 0 ≤ v) (t0 : OffsetDeleteRequestPartition47) :
    Parses (OffsetDeleteRequestPartition47.decode v t0) ((Ty.struct Protocol.OffsetDeleteRequestPartition).parse v) (fun x => OffsetDeleteRequestPartition47.of v x t0) :=
  FParses.parses (fs := Protocol.OffsetDeleteRequestPartition)
    (FParses.field hv (set := fun (t : OffsetDeleteRequestPartition47) x => { t with PartitionIndex := x }) par_int32 <|
    FParses.done)
    (by simp only [OffsetDeleteRequestPartition47.decode, Dec.andThen_nop]) (Fields.distinct_nodup _ (by decide +kernel)) (fun _ _ => rfl) t0

theorem OffsetDeleteRequestPartition47.shown {v : Int16} (hv : 0 ≤ v) (x : Val) (h : Protocol.OffsetDeleteRequestPartition.Typed v x) :
    Protocol.OffsetDeleteRequestPartition.shows v x (OffsetDeleteRequestPartition47.val (OffsetDeleteRequestPartition47.of v x {})) = true :=
  Shows.all hv (show_int32 (Fields.Typed.head (h) hv)) <|
    rfl

/-- What `OffsetDeleteRequestTopic47` holds after reading the value `x` into `t0`. -/
def OffsetDeleteRequestTopic47.of (v : Int16) (x : Val) (t0 : OffsetDeleteRequestTopic47) : OffsetDeleteRequestTopic47 :=
  { Name := (x.get "Name").toStr,
    Partitions := (x.get "Partitions").toSliceOr (fun y => OffsetDeleteRequestPartition47.of v y {}) t0.Partitions }

theorem OffsetDeleteRequestTopic47.decodes {v : Int16} (hv : 0 ≤ v) (x : Val) (h : Protocol.OffsetDeleteRequestTopic.Valid false v x) (t0 : OffsetDeleteRequestTopic47) :
    Reads (OffsetDeleteRequestTopic47.decode v t0) (Protocol.OffsetDeleteRequestTopic.wire false v x) (OffsetDeleteRequestTopic47.of v x t0) :=
  Reads.congr (((Step.field (set := fun (t : OffsetDeleteRequestTopic47) x => { t with Name := x }) (read_string (Fields.Valid.head (h) hv)))
      |>.andThen (Step.readStructs (get := fun (t : OffsetDeleteRequestTopic47) => t.Partitions) (set := fun (t : OffsetDeleteRequestTopic47) x => { t with Partitions := x }) (fun y hy => OffsetDeleteRequestPartition47.decodes hv y hy {}) (Fields.Valid.head (Fields.Valid.tail h) hv)) : Step _ _ _) t0)
    (Writes.eq (fs := Protocol.OffsetDeleteRequestTopic) (v := v) (x := x) <| Writes.all hv rfl <| Writes.all hv rfl <| Writes.done).symm rfl

theorem OffsetDeleteRequestTopic47.parses {v : Int16} (hv : 0 ≤ v) (t0 : OffsetDeleteRequestTopic47) :
    Parses (OffsetDeleteRequestTopic47.decode v t0) ((Ty.struct Protocol.OffsetDeleteRequestTopic).parse v) (fun x => OffsetDeleteRequestTopic47.of v x t0) :=
  FParses.parses (fs := Protocol.OffsetDeleteRequestTopic)
    (FParses.field hv (set := fun (t : OffsetDeleteRequestTopic47) x => { t with Name := x }) par_string <|
    FParses.structs hv (get := fun (t : OffsetDeleteRequestTopic47) => t.Partitions) (set := fun (t : OffsetDeleteRequestTopic47) x => { t with Partitions := x }) (OffsetDeleteRequestPartition47.parses hv {}) <|
    FParses.done)
    (by simp only [OffsetDeleteRequestTopic47.decode, Dec.andThen_nop]) (Fields.distinct_nodup _ (by decide +kernel)) (fun _ _ => rfl) t0

theorem OffsetDeleteRequestTopic47.shown {v : Int16} (hv : 0 ≤ v) (x : Val) (h : Protocol.OffsetDeleteRequestTopic.Typed v x) :
    Protocol.OffsetDeleteRequestTopic.shows v x (OffsetDeleteRequestTopic47.val (OffsetDeleteRequestTopic47.of v x {})) = true :=
  Shows.all hv (show_string (Fields.Typed.head (h) hv)) <|
    Shows.all hv (show_structs (f := OffsetDeleteRequestPartition47.val) (g := fun y => OffsetDeleteRequestPartition47.of v y {}) (fun y hy => OffsetDeleteRequestPartition47.shown hv y hy) (Fields.Typed.head (Fields.Typed.tail h) hv)) <|
    rfl

/-- What `OffsetDeleteRequest` holds after reading the value `x` into `t0`. -/
def OffsetDeleteRequest.of (v : Int16) (x : Val) (t0 : OffsetDeleteRequest) : OffsetDeleteRequest :=
  { GroupId := (x.get "GroupId").toStr,
    Topics := (x.get "Topics").toSliceOr (fun y => OffsetDeleteRequestTopic47.of v y {}) t0.Topics }

theorem OffsetDeleteRequest.decodes {v : Int16} (hv : 0 ≤ v) (x : Val) (h : Protocol.OffsetDeleteRequest.Valid false v x) (t0 : OffsetDeleteRequest) :
    Reads (OffsetDeleteRequest.decode v t0) (Protocol.OffsetDeleteRequest.wire false v x) (OffsetDeleteRequest.of v x t0) :=
  Reads.congr (((Step.field (set := fun (t : OffsetDeleteRequest) x => { t with GroupId := x }) (read_string (Fields.Valid.head (h) hv)))
      |>.andThen (Step.readStructs (get := fun (t : OffsetDeleteRequest) => t.Topics) (set := fun (t : OffsetDeleteRequest) x => { t with Topics := x }) (fun y hy => OffsetDeleteRequestTopic47.decodes hv y hy {}) (Fields.Valid.head (Fields.Valid.tail h) hv)) : Step _ _ _) t0)
    (Writes.eq (fs := Protocol.OffsetDeleteRequest) (v := v) (x := x) <| Writes.all hv rfl <| Writes.all hv rfl <| Writes.done).symm rfl

theorem OffsetDeleteRequest.parses {v : Int16} (hv : 0 ≤ v) (t0 : OffsetDeleteRequest) :
    Parses (OffsetDeleteRequest.decode v t0) ((Ty.struct Protocol.OffsetDeleteRequest).parse v) (fun x => OffsetDeleteRequest.of v x t0) :=
  FParses.parses (fs := Protocol.OffsetDeleteRequest)
    (FParses.field hv (set := fun (t : OffsetDeleteRequest) x => { t with GroupId := x }) par_string <|
    FParses.structs hv (get := fun (t : OffsetDeleteRequest) => t.Topics) (set := fun (t : OffsetDeleteRequest) x => { t with Topics := x }) (OffsetDeleteRequestTopic47.parses hv {}) <|
    FParses.done)
    (by simp only [OffsetDeleteRequest.decode, Dec.andThen_nop]) (Fields.distinct_nodup _ (by decide +kernel)) (fun _ _ => rfl) t0

theorem OffsetDeleteRequest.shown {v : Int16} (hv : 0 ≤ v) (x : Val) (h : Protocol.OffsetDeleteRequest.Typed v x) :
    Protocol.OffsetDeleteRequest.shows v x (OffsetDeleteRequest.val (OffsetDeleteRequest.of v x {})) = true :=
  Shows.all hv (show_string (Fields.Typed.head (h) hv)) <|
    Shows.all hv (show_structs (f := OffsetDeleteRequestTopic47.val) (g := fun y => OffsetDeleteRequestTopic47.of v y {}) (fun y hy => OffsetDeleteRequestTopic47.shown hv y hy) (Fields.Typed.head (Fields.Typed.tail h) hv)) <|
    rfl

end Kafka.Msg
