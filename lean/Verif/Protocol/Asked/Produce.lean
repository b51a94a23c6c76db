import Verif.Protocol.Conform.Produce
/-!
Generated by tools/gen_protocol.py: the Produce request is read as the protocol says.
-/
namespace Kafka.Msg

open Protocol

/-- What `PartitionProduceData0` holds after reading the value `x` into `t0`. -/
def PartitionProduceData0.of (_v : Int16) (x : Val) (_t0 : PartitionProduceData0) : PartitionProduceData0 :=
  { PartitionIndex := (x.get "PartitionIndex").toInt32,
    Records := (x.get "Records").toBytes }

theorem PartitionProduceData0.decodes {v : Int16} (hv : 0 ≤ v) (x : Val) (h : Protocol.PartitionProduceData.Valid false v x) (t0 : PartitionProduceData0) :
    Reads (PartitionProduceData0.decode v t0) (Protocol.PartitionProduceData.wire false v x) (PartitionProduceData0.of v x t0) :=
  Reads.congr (((Step.field (set := fun (t : PartitionProduceData0) x => { t with PartitionIndex := x }) (read_int32 (Fields.Valid.head (h) hv)))
      |>.andThen (Step.field (set := fun (t : PartitionProduceData0) x => { t with Records := x }) (read_bytes (Fields.Valid.head (Fields.Valid.tail h) hv))) : Step _ _ _) t0)
    (Writes.eq (fs := Protocol.PartitionProduceData) (v := v) (x := x) <| Writes.all hv rfl <| Writes.all hv rfl <| Writes.done).symm rfl

theorem PartitionProduceData0.parses {v : Int16} (hv : 0 ≤ v) (t0 : PartitionProduceData0) :
    Parses (PartitionProduceData0.decode v t0) ((Ty.struct Protocol.PartitionProduceData).parse v) (fun x => PartitionProduceData0.of v x t0) :=
  FParses.parses (fs := Protocol.PartitionProduceData)
    (FParses.field hv (set := fun (t : PartitionProduceData0) x => { t with PartitionIndex := x }) par_int32 <|
    FParses.field hv (set := fun (t : PartitionProduceData0) x => { t with Records := x }) par_bytes <|
    FParses.done)
    (by simp only [PartitionProduceData0.decode, Dec.andThen_nop]) (Fields.distinct_nodup _ (by decide +kernel)) (fun _ _ => rfl) t0

theorem PartitionProduceData0.shown {v : Int16} (hv : 0 ≤ v) (x : Val) (h : Protocol.PartitionProduceData.Typed v x) :
    Protocol.PartitionProduceData.shows v x (PartitionProduceData0.val (PartitionProduceData0.of v x {})) = true :=
  Shows.all hv (show_int32 (Fields.Typed.head (h) hv)) <|
    Shows.all hv (show_bytes (Fields.Typed.head (Fields.Typed.tail h) hv)) <|
    rfl

/-- What `TopicProduceData0` holds after reading the value `x` into `t0`. -/
def TopicProduceData0.of (v : Int16) (x : Val) (t0 : TopicProduceData0) : TopicProduceData0 :=
  { Name := (x.get "Name").toStr,
    Partitions := (x.get "Partitions").toSliceOr (fun y => PartitionProduceData0.of v y {}) t0.Partitions }

theorem TopicProduceData0.decodes {v : Int16} (hv : 0 ≤ v) (x : Val) (h : Protocol.TopicProduceData.Valid false v x) (t0 : TopicProduceData0) :
    Reads (TopicProduceData0.decode v t0) (Protocol.TopicProduceData.wire false v x) (TopicProduceData0.of v x t0) :=
  Reads.congr (((Step.field (set := fun (t : TopicProduceData0) x => { t with Name := x }) (read_string (Fields.Valid.head (h) hv)))
      |>.andThen (Step.readStructs (get := fun (t : TopicProduceData0) => t.Partitions) (set := fun (t : TopicProduceData0) x => { t with Partitions := x }) (fun y hy => PartitionProduceData0.decodes hv y hy {}) (Fields.Valid.head (Fields.Valid.tail h) hv)) : Step _ _ _) t0)
    (Writes.eq (fs := Protocol.TopicProduceData) (v := v) (x := x) <| Writes.all hv rfl <| Writes.all hv rfl <| Writes.done).symm rfl

theorem TopicProduceData0.parses {v : Int16} (hv : 0 ≤ v) (t0 : TopicProduceData0) :
    Parses (TopicProduceData0.decode v t0) ((Ty.struct Protocol.TopicProduceData).parse v) (fun x => TopicProduceData0.of v x t0) :=
  FParses.parses (fs := Protocol.TopicProduceData)
    (FParses.field hv (set := fun (t : TopicProduceData0) x => { t with Name := x }) par_string <|
    FParses.structs hv (get := fun (t : TopicProduceData0) => t.Partitions) (set := fun (t : TopicProduceData0) x => { t with Partitions := x }) (PartitionProduceData0.parses hv {}) <|
    FParses.done)
    (by simp only [TopicProduceData0.decode, Dec.andThen_nop]) (Fields.distinct_nodup _ (by decide +kernel)) (fun _ _ => rfl) t0

theorem TopicProduceData0.shown {v : Int16} (hv : 0 ≤ v) (x : Val) (h : Protocol.TopicProduceData.Typed v x) :
    Protocol.TopicProduceData.shows v x (TopicProduceData0.val (TopicProduceData0.of v x {})) = true :=
  Shows.all hv (show_string (Fields.Typed.head (h) hv)) <|
    Shows.all hv (show_structs (f := PartitionProduceData0.val) (g := fun y => PartitionProduceData0.of v y {}) (fun y hy => PartitionProduceData0.shown hv y hy) (Fields.Typed.head (Fields.Typed.tail h) hv)) <|
    rfl

/-- What `ProduceRequest` holds after reading the value `x` into `t0`. -/
def ProduceRequest.of (v : Int16) (x : Val) (t0 : ProduceRequest) : ProduceRequest :=
  { TransactionalId := if v ≥ 3 then (x.get "TransactionalId").toStr else t0.TransactionalId,
    Acks := (x.get "Acks").toInt16,
    TimeoutMs := (x.get "TimeoutMs").toInt32,
    Topics := (x.get "Topics").toSliceOr (fun y => TopicProduceData0.of v y {}) t0.Topics }

theorem ProduceRequest.decodes {v : Int16} (hv : 0 ≤ v) (x : Val) (h : Protocol.ProduceRequest.Valid false v x) (t0 : ProduceRequest) :
    Reads (ProduceRequest.decode v t0) (Protocol.ProduceRequest.wire false v x) (ProduceRequest.of v x t0) :=
  Reads.congr (((Step.optField (c := v ≥ 3) (set := fun (t : ProduceRequest) x => { t with TransactionalId := x }) (·.TransactionalId) (fun _ => rfl) fun hc => read_string (Fields.Valid.head (h) hc))
      |>.andThen (Step.field (set := fun (t : ProduceRequest) x => { t with Acks := x }) (read_int16 (Fields.Valid.head (Fields.Valid.tail h) hv)))
      |>.andThen (Step.field (set := fun (t : ProduceRequest) x => { t with TimeoutMs := x }) (read_int32 (Fields.Valid.head (Fields.Valid.tail (Fields.Valid.tail h)) hv)))
      |>.andThen (Step.readStructs (get := fun (t : ProduceRequest) => t.Topics) (set := fun (t : ProduceRequest) x => { t with Topics := x }) (fun y hy => TopicProduceData0.decodes hv y hy {}) (Fields.Valid.head (Fields.Valid.tail (Fields.Valid.tail (Fields.Valid.tail h))) hv)) : Step _ _ _) t0)
    (Writes.eq (fs := Protocol.ProduceRequest) (v := v) (x := x) <| Writes.since rfl <| Writes.all hv rfl <| Writes.all hv rfl <| Writes.all hv rfl <| Writes.done).symm rfl

theorem ProduceRequest.parses {v : Int16} (hv : 0 ≤ v) (t0 : ProduceRequest) :
    Parses (ProduceRequest.decode v t0) ((Ty.struct Protocol.ProduceRequest).parse v) (fun x => ProduceRequest.of v x t0) :=
  FParses.parses (fs := Protocol.ProduceRequest)
    (FParses.optField (c := v ≥ 3) Iff.rfl (set := fun (t : ProduceRequest) x => { t with TransactionalId := x }) (·.TransactionalId) (fun _ => rfl) par_string <|
    FParses.field hv (set := fun (t : ProduceRequest) x => { t with Acks := x }) par_int16 <|
    FParses.field hv (set := fun (t : ProduceRequest) x => { t with TimeoutMs := x }) par_int32 <|
    FParses.structs hv (get := fun (t : ProduceRequest) => t.Topics) (set := fun (t : ProduceRequest) x => { t with Topics := x }) (TopicProduceData0.parses hv {}) <|
    FParses.done)
    (by simp only [ProduceRequest.decode, Dec.andThen_assoc, Dec.andThen_nop]) (Fields.distinct_nodup _ (by decide +kernel)) (fun _ _ => rfl) t0

theorem ProduceRequest.shown {v : Int16} (hv : 0 ≤ v) (x : Val) (h : Protocol.ProduceRequest.Typed v x) :
    Protocol.ProduceRequest.shows v x (ProduceRequest.val (ProduceRequest.of v x {})) = true :=
  Shows.since (fun s => .str (some s)) rfl (fun hc => show_string (Fields.Typed.head (h) hc)) rfl <|
    Shows.all hv (show_int16 (Fields.Typed.head (Fields.Typed.tail h) hv)) <|
    Shows.all hv (show_int32 (Fields.Typed.head (Fields.Typed.tail (Fields.Typed.tail h)) hv)) <|
    Shows.all hv (show_structs (f := TopicProduceData0.val) (g := fun y => TopicProduceData0.of v y {}) (fun y hy => TopicProduceData0.shown hv y hy) (Fields.Typed.head (Fields.Typed.tail (Fields.Typed.tail (Fields.Typed.tail h))) hv)) <|
    rfl

end Kafka.Msg
