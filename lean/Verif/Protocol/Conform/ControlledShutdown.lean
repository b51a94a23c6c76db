import Verif.Protocol.ParseLemmas
import Verif.Gen.Spec.ControlledShutdown
/-!
Generated by tools/gen_protocol.py: the ControlledShutdown messages are written and read as the protocol says.
-/
namespace Kafka.Msg

open Protocol

/-- `ControlledShutdownRequest` as a value of the protocol. -/
def ControlledShutdownRequest.val (t : ControlledShutdownRequest) : Val :=
  .struct [("BrokerId", .int32 t.BrokerId),
    ("BrokerEpoch", .int64 t.BrokerEpoch)]

theorem ControlledShutdownRequest.conforms {v : Int16} (hv : 0 ≤ v) (t : ControlledShutdownRequest) :
    Protocol.ControlledShutdownRequest.wire false v (ControlledShutdownRequest.val t) = ControlledShutdownRequest.wire v t :=
  Writes.eq <|
    Writes.all hv (Protocol.wire_int32 v t.BrokerId) <|
    Writes.since (Protocol.wire_int64 v t.BrokerEpoch) <|
    Writes.done

/-- There is nothing that may not be nil. -/
def ControlledShutdownRequest.Full (_v : Int16) (_t : ControlledShutdownRequest) : Prop := True

theorem ControlledShutdownRequest.valid {v : Int16} (_hv : 0 ≤ v) (t : ControlledShutdownRequest) (_h : t.Fits v) (_hf : t.Full v) :
    Protocol.ControlledShutdownRequest.Valid true v (ControlledShutdownRequest.val t) :=
  Valids.all trivial <|
    Valids.since (fun _ => trivial) <|
    trivial

/-- `RemainingPartition7` as a value of the protocol. -/
def RemainingPartition7.val (t : RemainingPartition7) : Val :=
  .struct [("TopicName", .str (some t.TopicName)),
    ("PartitionIndex", .int32 t.PartitionIndex)]

theorem RemainingPartition7.conforms {v : Int16} (hv : 0 ≤ v) (t : RemainingPartition7) :
    Protocol.RemainingPartition.wire false v (RemainingPartition7.val t) = RemainingPartition7.wire v t :=
  Writes.eq <|
    Writes.all hv (Protocol.wire_string v t.TopicName) <|
    Writes.all hv (Protocol.wire_int32 v t.PartitionIndex) <|
    Writes.done

/-- There is nothing that may not be nil. -/
def RemainingPartition7.Full (_v : Int16) (_t : RemainingPartition7) : Prop := True

theorem RemainingPartition7.valid {v : Int16} (_hv : 0 ≤ v) (t : RemainingPartition7) (h : t.Fits v) (_hf : t.Full v) :
    Protocol.RemainingPartition.Valid true v (RemainingPartition7.val t) :=
  Valids.all (valid_string (h.TopicName)) <|
    Valids.all trivial <|
    trivial

/-- What `RemainingPartition7` holds after reading the value `x` into `t0`. -/
def RemainingPartition7.of (_v : Int16) (x : Val) (_t0 : RemainingPartition7) : RemainingPartition7 :=
  { TopicName := (x.get "TopicName").toStr,
    PartitionIndex := (x.get "PartitionIndex").toInt32 }

theorem RemainingPartition7.decodes {v : Int16} (hv : 0 ≤ v) (x : Val) (h : Protocol.RemainingPartition.Valid false v x) (t0 : RemainingPartition7) :
    Reads (RemainingPartition7.decode v t0) (Protocol.RemainingPartition.wire false v x) (RemainingPartition7.of v x t0) :=
  Reads.congr (((Step.field (set := fun (t : RemainingPartition7) x => { t with TopicName := x }) (read_string (Fields.Valid.head (h) hv)))
      |>.andThen (Step.field (set := fun (t : RemainingPartition7) x => { t with PartitionIndex := x }) (read_int32 (Fields.Valid.head (Fields.Valid.tail h) hv))) : Step _ _ _) t0)
    (Writes.eq (fs := Protocol.RemainingPartition) (v := v) (x := x) <| Writes.all hv rfl <| Writes.all hv rfl <| Writes.done).symm rfl

theorem RemainingPartition7.parses {v : Int16} (hv : 0 ≤ v) (t0 : RemainingPartition7) :
    Parses (RemainingPartition7.decode v t0) ((Ty.struct Protocol.RemainingPartition).parse v) (fun x => RemainingPartition7.of v x t0) :=
  FParses.parses (fs := Protocol.RemainingPartition)
    (FParses.field hv (set := fun (t : RemainingPartition7) x => { t with TopicName := x }) par_string <|
    FParses.field hv (set := fun (t : RemainingPartition7) x => { t with PartitionIndex := x }) par_int32 <|
    FParses.done)
    (by simp only [RemainingPartition7.decode, Dec.andThen_nop]) (Fields.distinct_nodup _ (by decide +kernel)) (fun _ _ => rfl) t0

theorem RemainingPartition7.shown {v : Int16} (hv : 0 ≤ v) (x : Val) (h : Protocol.RemainingPartition.Typed v x) :
    Protocol.RemainingPartition.shows v x (RemainingPartition7.val (RemainingPartition7.of v x {})) = true :=
  Shows.all hv (show_string (Fields.Typed.head (h) hv)) <|
    Shows.all hv (show_int32 (Fields.Typed.head (Fields.Typed.tail h) hv)) <|
    rfl

/-- `ControlledShutdownResponse` as a value of the protocol. -/
def ControlledShutdownResponse.val (t : ControlledShutdownResponse) : Val :=
  .struct [("ErrorCode", .int16 t.ErrorCode),
    ("RemainingPartitions", ofStructs RemainingPartition7.val t.RemainingPartitions)]

theorem ControlledShutdownResponse.conforms {v : Int16} (hv : 0 ≤ v) (t : ControlledShutdownResponse) :
    Protocol.ControlledShutdownResponse.wire false v (ControlledShutdownResponse.val t) = ControlledShutdownResponse.wire v t :=
  Writes.eq <|
    Writes.all hv (Protocol.wire_int16 v t.ErrorCode) <|
    Writes.all hv (Protocol.wire_structs v (RemainingPartition7.conforms hv) t.RemainingPartitions) <|
    Writes.done

/-- There is nothing that may not be nil. -/
def ControlledShutdownResponse.Full (_v : Int16) (_t : ControlledShutdownResponse) : Prop := True

theorem ControlledShutdownResponse.valid {v : Int16} (hv : 0 ≤ v) (t : ControlledShutdownResponse) (h : t.Fits v) (_hf : t.Full v) :
    Protocol.ControlledShutdownResponse.Valid true v (ControlledShutdownResponse.val t) :=
  Valids.all trivial <|
    Valids.all (valid_structs (fun y h hf => RemainingPartition7.valid hv y h hf) (h.RemainingPartitions) (fun _ _ => trivial)) <|
    trivial

/-- What `ControlledShutdownResponse` holds after reading the value `x` into `t0`. -/
def ControlledShutdownResponse.of (v : Int16) (x : Val) (t0 : ControlledShutdownResponse) : ControlledShutdownResponse :=
  { ErrorCode := (x.get "ErrorCode").toInt16,
    RemainingPartitions := (x.get "RemainingPartitions").toSliceOr (fun y => RemainingPartition7.of v y {}) t0.RemainingPartitions }

theorem ControlledShutdownResponse.decodes {v : Int16} (hv : 0 ≤ v) (x : Val) (h : Protocol.ControlledShutdownResponse.Valid false v x) (t0 : ControlledShutdownResponse) :
    Reads (ControlledShutdownResponse.decode v t0) (Protocol.ControlledShutdownResponse.wire false v x) (ControlledShutdownResponse.of v x t0) :=
  Reads.congr (((Step.field (set := fun (t : ControlledShutdownResponse) x => { t with ErrorCode := x }) (read_int16 (Fields.Valid.head (h) hv)))
      |>.andThen (Step.readStructs (get := fun (t : ControlledShutdownResponse) => t.RemainingPartitions) (set := fun (t : ControlledShutdownResponse) x => { t with RemainingPartitions := x }) (fun y hy => RemainingPartition7.decodes hv y hy {}) (Fields.Valid.head (Fields.Valid.tail h) hv)) : Step _ _ _) t0)
    (Writes.eq (fs := Protocol.ControlledShutdownResponse) (v := v) (x := x) <| Writes.all hv rfl <| Writes.all hv rfl <| Writes.done).symm rfl

theorem ControlledShutdownResponse.parses {v : Int16} (hv : 0 ≤ v) (t0 : ControlledShutdownResponse) :
    Parses (ControlledShutdownResponse.decode v t0) ((Ty.struct Protocol.ControlledShutdownResponse).parse v) (fun x => ControlledShutdownResponse.of v x t0) :=
  FParses.parses (fs := Protocol.ControlledShutdownResponse)
    (FParses.field hv (set := fun (t : ControlledShutdownResponse) x => { t with ErrorCode := x }) par_int16 <|
    FParses.structs hv (get := fun (t : ControlledShutdownResponse) => t.RemainingPartitions) (set := fun (t : ControlledShutdownResponse) x => { t with RemainingPartitions := x }) (RemainingPartition7.parses hv {}) <|
    FParses.done)
    (by simp only [ControlledShutdownResponse.decode, Dec.andThen_nop]) (Fields.distinct_nodup _ (by decide +kernel)) (fun _ _ => rfl) t0

theorem ControlledShutdownResponse.shown {v : Int16} (hv : 0 ≤ v) (x : Val) (h : Protocol.ControlledShutdownResponse.Typed v x) :
    Protocol.ControlledShutdownResponse.shows v x (ControlledShutdownResponse.val (ControlledShutdownResponse.of v x {})) = true :=
  Shows.all hv (show_int16 (Fields.Typed.head (h) hv)) <|
    Shows.all hv (show_structs (f := RemainingPartition7.val) (g := fun y => RemainingPartition7.of v y {}) (fun y hy => RemainingPartition7.shown hv y hy) (Fields.Typed.head (Fields.Typed.tail h) hv)) <|
    rfl

end Kafka.Msg
