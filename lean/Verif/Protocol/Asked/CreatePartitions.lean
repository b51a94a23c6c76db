import Verif.Protocol.Conform.CreatePartitions
/-!
Generated by tools/gen_protocol.py: the CreatePartitions request is read as the protocol says.
-/
namespace Kafka.Msg

open Protocol

/-- What `CreatePartitionsAssignment37` holds after reading the value `x` into `t0`. -/
def CreatePartitionsAssignment37.of (_v : Int16) (x : Val) (_t0 : CreatePartitionsAssignment37) : CreatePartitionsAssignment37 :=
  { BrokerIds := (x.get "BrokerIds").toSlice Val.toInt32 }

theorem CreatePartitionsAssignment37.decodes {v : Int16} (hv : 0 ≤ v) (x : Val) (h : Protocol.CreatePartitionsAssignment.Valid false v x) (t0 : CreatePartitionsAssignment37) :
    Reads (CreatePartitionsAssignment37.decode v t0) (Protocol.CreatePartitionsAssignment.wire false v x) (CreatePartitionsAssignment37.of v x t0) :=
  Reads.congr (((Step.field (set := fun (t : CreatePartitionsAssignment37) x => { t with BrokerIds := x }) (read_int32Array (Fields.Valid.head (h) hv))) : Step _ _ _) t0)
    (Writes.eq (fs := Protocol.CreatePartitionsAssignment) (v := v) (x := x) <| Writes.all hv rfl <| Writes.done).symm rfl

theorem CreatePartitionsAssignment37.parses {v : Int16} (hv : 0 ≤ v) (t0 : CreatePartitionsAssignment37) :
    Parses (CreatePartitionsAssignment37.decode v t0) ((Ty.struct Protocol.CreatePartitionsAssignment).parse v) (fun x => CreatePartitionsAssignment37.of v x t0) :=
  FParses.parses (fs := Protocol.CreatePartitionsAssignment)
    (FParses.field hv (set := fun (t : CreatePartitionsAssignment37) x => { t with BrokerIds := x }) par_int32Array <|
    FParses.done)
    (by simp only [CreatePartitionsAssignment37.decode, Dec.andThen_nop]) (Fields.distinct_nodup _ (by decide +kernel)) (fun _ _ => rfl) t0

theorem CreatePartitionsAssignment37.shown {v : Int16} (hv : 0 ≤ v) (x : Val) (h : Protocol.CreatePartitionsAssignment.Typed v x) :
    Protocol.CreatePartitionsAssignment.shows v x (CreatePartitionsAssignment37.val (CreatePartitionsAssignment37.of v x {})) = true :=
  Shows.all hv (show_int32Array (Fields.Typed.head (h) hv)) <|
    rfl

/-- What `CreatePartitionsTopic37` holds after reading the value `x` into `t0`. -/
def CreatePartitionsTopic37.of (v : Int16) (x : Val) (t0 : CreatePartitionsTopic37) : CreatePartitionsTopic37 :=
  { Name := (x.get "Name").toStr,
    Count := (x.get "Count").toInt32,
    Assignments := (x.get "Assignments").toSliceOr (fun y => CreatePartitionsAssignment37.of v y {}) t0.Assignments }

theorem CreatePartitionsTopic37.decodes {v : Int16} (hv : 0 ≤ v) (x : Val) (h : Protocol.CreatePartitionsTopic.Valid false v x) (t0 : CreatePartitionsTopic37) :
    Reads (CreatePartitionsTopic37.decode v t0) (Protocol.CreatePartitionsTopic.wire false v x) (CreatePartitionsTopic37.of v x t0) :=
  Reads.congr (((Step.field (set := fun (t : CreatePartitionsTopic37) x => { t with Name := x }) (read_string (Fields.Valid.head (h) hv)))
      |>.andThen (Step.field (set := fun (t : CreatePartitionsTopic37) x => { t with Count := x }) (read_int32 (Fields.Valid.head (Fields.Valid.tail h) hv)))
      |>.andThen (Step.readStructs (get := fun (t : CreatePartitionsTopic37) => t.Assignments) (set := fun (t : CreatePartitionsTopic37) x => { t with Assignments := x }) (fun y hy => CreatePartitionsAssignment37.decodes hv y hy {}) (Fields.Valid.head (Fields.Valid.tail (Fields.Valid.tail h)) hv)) : Step _ _ _) t0)
    (Writes.eq (fs := Protocol.CreatePartitionsTopic) (v := v) (x := x) <| Writes.all hv rfl <| Writes.all hv rfl <| Writes.all hv rfl <| Writes.done).symm rfl

theorem CreatePartitionsTopic37.parses {v : Int16} (hv : 0 ≤ v) (t0 : CreatePartitionsTopic37) :
    Parses (CreatePartitionsTopic37.decode v t0) ((Ty.struct Protocol.CreatePartitionsTopic).parse v) (fun x => CreatePartitionsTopic37.of v x t0) :=
  FParses.parses (fs := Protocol.CreatePartitionsTopic)
    (FParses.field hv (set := fun (t : CreatePartitionsTopic37) x => { t with Name := x }) par_string <|
    FParses.field hv (set := fun (t : CreatePartitionsTopic37) x => { t with Count := x }) par_int32 <|
    FParses.structs hv (get := fun (t : CreatePartitionsTopic37) => t.Assignments) (set := fun (t : CreatePartitionsTopic37) x => { t with Assignments := x }) (CreatePartitionsAssignment37.parses hv {}) <|
    FParses.done)
    (by simp only [CreatePartitionsTopic37.decode, Dec.andThen_assoc, Dec.andThen_nop]) (Fields.distinct_nodup _ (by decide +kernel)) (fun _ _ => rfl) t0

theorem CreatePartitionsTopic37.shown {v : Int16} (hv : 0 ≤ v) (x : Val) (h : Protocol.CreatePartitionsTopic.Typed v x) :
    Protocol.CreatePartitionsTopic.shows v x (CreatePartitionsTopic37.val (CreatePartitionsTopic37.of v x {})) = true :=
  Shows.all hv (show_string (Fields.Typed.head (h) hv)) <|
    Shows.all hv (show_int32 (Fields.Typed.head (Fields.Typed.tail h) hv)) <|
    Shows.all hv (show_structs (f := CreatePartitionsAssignment37.val) (g := fun y => CreatePartitionsAssignment37.of v y {}) (fun y hy => CreatePartitionsAssignment37.shown hv y hy) (Fields.Typed.head (Fields.Typed.tail (Fields.Typed.tail h)) hv)) <|
    rfl

/-- What `CreatePartitionsRequest` holds after reading the value `x` into `t0`. -/
def CreatePartitionsRequest.of (v : Int16) (x : Val) (t0 : CreatePartitionsRequest) : CreatePartitionsRequest :=
  { Topics := (x.get "Topics").toSliceOr (fun y => CreatePartitionsTopic37.of v y {}) t0.Topics,
    TimeoutMs := (x.get "TimeoutMs").toInt32,
    ValidateOnly := (x.get "ValidateOnly").toBool }

theorem CreatePartitionsRequest.decodes {v : Int16} (hv : 0 ≤ v) (x : Val) (h : Protocol.CreatePartitionsRequest.Valid false v x) (t0 : CreatePartitionsRequest) :
    Reads (CreatePartitionsRequest.decode v t0) (Protocol.CreatePartitionsRequest.wire false v x) (CreatePartitionsRequest.of v x t0) :=
  Reads.congr (((Step.readStructs (get := fun (t : CreatePartitionsRequest) => t.Topics) (set := fun (t : CreatePartitionsRequest) x => { t with Topics := x }) (fun y hy => CreatePartitionsTopic37.decodes hv y hy {}) (Fields.Valid.head (h) hv))
      |>.andThen (Step.field (set := fun (t : CreatePartitionsRequest) x => { t with TimeoutMs := x }) (read_int32 (Fields.Valid.head (Fields.Valid.tail h) hv)))
      |>.andThen (Step.field (set := fun (t : CreatePartitionsRequest) x => { t with ValidateOnly := x }) (read_bool (Fields.Valid.head (Fields.Valid.tail (Fields.Valid.tail h)) hv))) : Step _ _ _) t0)
    (Writes.eq (fs := Protocol.CreatePartitionsRequest) (v := v) (x := x) <| Writes.all hv rfl <| Writes.all hv rfl <| Writes.all hv rfl <| Writes.done).symm rfl

theorem CreatePartitionsRequest.parses {v : Int16} (hv : 0 ≤ v) (t0 : CreatePartitionsRequest) :
    Parses (CreatePartitionsRequest.decode v t0) ((Ty.struct Protocol.CreatePartitionsRequest).parse v) (fun x => CreatePartitionsRequest.of v x t0) :=
  FParses.parses (fs := Protocol.CreatePartitionsRequest)
    (FParses.structs hv (get := fun (t : CreatePartitionsRequest) => t.Topics) (set := fun (t : CreatePartitionsRequest) x => { t with Topics := x }) (CreatePartitionsTopic37.parses hv {}) <|
    FParses.field hv (set := fun (t : CreatePartitionsRequest) x => { t with TimeoutMs := x }) par_int32 <|
    FParses.field hv (set := fun (t : CreatePartitionsRequest) x => { t with ValidateOnly := x }) par_bool <|
    FParses.done)
    (by simp only [CreatePartitionsRequest.decode, Dec.andThen_assoc, Dec.andThen_nop]) (Fields.distinct_nodup _ (by decide +kernel)) (fun _ _ => rfl) t0

theorem CreatePartitionsRequest.shown {v : Int16} (hv : 0 ≤ v) (x : Val) (h : Protocol.CreatePartitionsRequest.Typed v x) :
    Protocol.CreatePartitionsRequest.shows v x (CreatePartitionsRequest.val (CreatePartitionsRequest.of v x {})) = true :=
  Shows.all hv (show_structs (f := CreatePartitionsTopic37.val) (g := fun y => CreatePartitionsTopic37.of v y {}) (fun y hy => CreatePartitionsTopic37.shown hv y hy) (Fields.Typed.head (h) hv)) <|
    Shows.all hv (show_int32 (Fields.Typed.head (Fields.Typed.tail h) hv)) <|
    Shows.all hv (show_bool (Fields.Typed.head (Fields.Typed.tail (Fields.Typed.tail h)) hv)) <|
    rfl

end Kafka.Msg
