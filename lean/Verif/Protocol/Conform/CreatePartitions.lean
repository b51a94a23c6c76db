import Verif.Protocol.ParseLemmas
import Verif.Gen.Spec.CreatePartitions
/-!
Generated by tools/gen_protocol.py: the CreatePartitions messages are written and read as the protocol says.
-/
namespace Kafka.Msg

open Protocol

/-- `CreatePartitionsAssignment37` as a value of the protocol. -/
def CreatePartitionsAssignment37.val (t : CreatePartitionsAssignment37) : Val :=
  .struct [("BrokerIds", ofScalars .int32 t.BrokerIds)]

theorem CreatePartitionsAssignment37.conforms {v : Int16} (hv : 0 ≤ v) (t : CreatePartitionsAssignment37) :
    Protocol.CreatePartitionsAssignment.wire false v (CreatePartitionsAssignment37.val t) = CreatePartitionsAssignment37.wire v t :=
  Writes.eq <|
    Writes.all hv (Protocol.wire_int32Array v t.BrokerIds) <|
    Writes.done

/-- No slice of scalars is nil where the protocol has no null. -/
structure CreatePartitionsAssignment37.Full (v : Int16) (t : CreatePartitionsAssignment37) : Prop where
  BrokerIds : t.BrokerIds.NotNil

theorem CreatePartitionsAssignment37.valid {v : Int16} (_hv : 0 ≤ v) (t : CreatePartitionsAssignment37) (h : t.Fits v) (hf : t.Full v) :
    Protocol.CreatePartitionsAssignment.Valid true v (CreatePartitionsAssignment37.val t) :=
  Valids.all (valid_int32Array (h.BrokerIds) (.inr (hf.BrokerIds))) <|
    trivial

/-- `CreatePartitionsTopic37` as a value of the protocol. -/
def CreatePartitionsTopic37.val (t : CreatePartitionsTopic37) : Val :=
  .struct [("Name", .str (some t.Name)),
    ("Count", .int32 t.Count),
    ("Assignments", ofStructs CreatePartitionsAssignment37.val t.Assignments)]

theorem CreatePartitionsTopic37.conforms {v : Int16} (hv : 0 ≤ v) (t : CreatePartitionsTopic37) :
    Protocol.CreatePartitionsTopic.wire false v (CreatePartitionsTopic37.val t) = CreatePartitionsTopic37.wire v t :=
  Writes.eq <|
    Writes.all hv (Protocol.wire_string v t.Name) <|
    Writes.all hv (Protocol.wire_int32 v t.Count) <|
    Writes.all hv (Protocol.wire_structs v (CreatePartitionsAssignment37.conforms hv) t.Assignments) <|
    Writes.done

/-- No slice of scalars is nil where the protocol has no null. -/
structure CreatePartitionsTopic37.Full (v : Int16) (t : CreatePartitionsTopic37) : Prop where
  Assignments : FullAll (CreatePartitionsAssignment37.Full v) t.Assignments

theorem CreatePartitionsTopic37.valid {v : Int16} (hv : 0 ≤ v) (t : CreatePartitionsTopic37) (h : t.Fits v) (hf : t.Full v) :
    Protocol.CreatePartitionsTopic.Valid true v (CreatePartitionsTopic37.val t) :=
  Valids.all (valid_string (h.Name)) <|
    Valids.all trivial <|
    Valids.all (valid_structs (fun y h hf => CreatePartitionsAssignment37.valid hv y h hf) (h.Assignments) (hf.Assignments)) <|
    trivial

/-- `CreatePartitionsRequest` as a value of the protocol. -/
def CreatePartitionsRequest.val (t : CreatePartitionsRequest) : Val :=
  .struct [("Topics", ofStructs CreatePartitionsTopic37.val t.Topics),
    ("TimeoutMs", .int32 t.TimeoutMs),
    ("ValidateOnly", .bool t.ValidateOnly)]

theorem CreatePartitionsRequest.conforms {v : Int16} (hv : 0 ≤ v) (t : CreatePartitionsRequest) :
    Protocol.CreatePartitionsRequest.wire false v (CreatePartitionsRequest.val t) = CreatePartitionsRequest.wire v t :=
  Writes.eq <|
    Writes.all hv (Protocol.wire_structs v (CreatePartitionsTopic37.conforms hv) t.Topics) <|
    Writes.all hv (Protocol.wire_int32 v t.TimeoutMs) <|
    Writes.all hv (Protocol.wire_bool v t.ValidateOnly) <|
    Writes.done

/-- No slice of scalars is nil where the protocol has no null. -/
structure CreatePartitionsRequest.Full (v : Int16) (t : CreatePartitionsRequest) : Prop where
  Topics : FullAll (CreatePartitionsTopic37.Full v) t.Topics

theorem CreatePartitionsRequest.valid {v : Int16} (hv : 0 ≤ v) (t : CreatePartitionsRequest) (h : t.Fits v) (hf : t.Full v) :
    Protocol.CreatePartitionsRequest.Valid true v (CreatePartitionsRequest.val t) :=
  Valids.all (valid_structs (fun y h hf => CreatePartitionsTopic37.valid hv y h hf) (h.Topics) (hf.Topics)) <|
    Valids.all trivial <|
    Valids.all trivial <|
    trivial

/-- `CreatePartitionsTopicResult37` as a value of the protocol. -/
def CreatePartitionsTopicResult37.val (t : CreatePartitionsTopicResult37) : Val :=
  .struct [("Name", .str (some t.Name)),
    ("ErrorCode", .int16 t.ErrorCode),
    ("ErrorMessage", .str (some t.ErrorMessage))]

theorem CreatePartitionsTopicResult37.conforms {v : Int16} (hv : 0 ≤ v) (t : CreatePartitionsTopicResult37) :
    Protocol.CreatePartitionsTopicResult.wire false v (CreatePartitionsTopicResult37.val t) = CreatePartitionsTopicResult37.wire v t :=
  Writes.eq <|
    Writes.all hv (Protocol.wire_string v t.Name) <|
    Writes.all hv (Protocol.wire_int16 v t.ErrorCode) <|
    Writes.all hv (Protocol.wire_string v t.ErrorMessage) <|
    Writes.done

/-- There is nothing that may not be nil. -/
def CreatePartitionsTopicResult37.Full (_v : Int16) (_t : CreatePartitionsTopicResult37) : Prop := True

theorem CreatePartitionsTopicResult37.valid {v : Int16} (_hv : 0 ≤ v) (t : CreatePartitionsTopicResult37) (h : t.Fits v) (_hf : t.Full v) :
    Protocol.CreatePartitionsTopicResult.Valid true v (CreatePartitionsTopicResult37.val t) :=
  Valids.all (valid_string (h.Name)) <|
    Valids.all trivial <|
    Valids.all (valid_string (h.ErrorMessage)) <|
    trivial

/-- What `CreatePartitionsTopicResult37` holds after reading the value `x` into `t0`. -/
def CreatePartitionsTopicResult37.of (_v : Int16) (x : Val) (_t0 : CreatePartitionsTopicResult37) : CreatePartitionsTopicResult37 :=
  { Name := (x.get "Name").toStr,
    ErrorCode := (x.get "ErrorCode").toInt16,
    ErrorMessage := (x.get "ErrorMessage").toStr }

theorem CreatePartitionsTopicResult37.decodes {v : Int16} (hv : 0 ≤ v) (x : Val) (h : Protocol.CreatePartitionsTopicResult.Valid false v x) (t0 : CreatePartitionsTopicResult37) :
    Reads (CreatePartitionsTopicResult37.decode v t0) (Protocol.CreatePartitionsTopicResult.wire false v x) (CreatePartitionsTopicResult37.of v x t0) :=
  Reads.congr (((Step.field (set := fun (t : CreatePartitionsTopicResult37) x => { t with Name := x }) (read_string (Fields.Valid.head (h) hv)))
      |>.andThen (Step.field (set := fun (t : CreatePartitionsTopicResult37) x => { t with ErrorCode := x }) (read_int16 (Fields.Valid.head (Fields.Valid.tail h) hv)))
      |>.andThen (Step.field (set := fun (t : CreatePartitionsTopicResult37) x => { t with ErrorMessage := x }) (read_string (Fields.Valid.head (Fields.Valid.tail (Fields.Valid.tail h)) hv))) : Step _ _ _) t0)
    (Writes.eq (fs := Protocol.CreatePartitionsTopicResult) (v := v) (x := x) <| Writes.all hv rfl <| Writes.all hv rfl <| Writes.all hv rfl <| Writes.done).symm rfl

theorem CreatePartitionsTopicResult37.parses {v : Int16} (hv : 0 ≤ v) (t0 : CreatePartitionsTopicResult37) :
    Parses (CreatePartitionsTopicResult37.decode v t0) ((Ty.struct Protocol.CreatePartitionsTopicResult).parse v) (fun x => CreatePartitionsTopicResult37.of v x t0) :=
  FParses.parses (fs := Protocol.CreatePartitionsTopicResult)
    (FParses.field hv (set := fun (t : CreatePartitionsTopicResult37) x => { t with Name := x }) par_string <|
    FParses.field hv (set := fun (t : CreatePartitionsTopicResult37) x => { t with ErrorCode := x }) par_int16 <|
    FParses.field hv (set := fun (t : CreatePartitionsTopicResult37) x => { t with ErrorMessage := x }) par_string <|
    FParses.done)
    (by simp only [CreatePartitionsTopicResult37.decode, Dec.andThen_assoc, Dec.andThen_nop]) (Fields.distinct_nodup _ (by decide +kernel)) (fun _ _ => rfl) t0

theorem CreatePartitionsTopicResult37.shown {v : Int16} (hv : 0 ≤ v) (x : Val) (h : Protocol.CreatePartitionsTopicResult.Typed v x) :
    Protocol.CreatePartitionsTopicResult.shows v x (CreatePartitionsTopicResult37.val (CreatePartitionsTopicResult37.of v x {})) = true :=
  Shows.all hv (show_string (Fields.Typed.head (h) hv)) <|
    Shows.all hv (show_int16 (Fields.Typed.head (Fields.Typed.tail h) hv)) <|
    Shows.all hv (show_string (Fields.Typed.head (Fields.Typed.tail (Fields.Typed.tail h)) hv)) <|
    rfl

/-- `CreatePartitionsResponse` as a value of the protocol. -/
def CreatePartitionsResponse.val (t : CreatePartitionsResponse) : Val :=
  .struct [("ThrottleTimeMs", .int32 t.ThrottleTimeMs),
    ("Results", ofStructs CreatePartitionsTopicResult37.val t.Results)]

theorem CreatePartitionsResponse.conforms {v : Int16} (hv : 0 ≤ v) (t : CreatePartitionsResponse) :
    Protocol.CreatePartitionsResponse.wire false v (CreatePartitionsResponse.val t) = CreatePartitionsResponse.wire v t :=
  Writes.eq <|
    Writes.all hv (Protocol.wire_int32 v t.ThrottleTimeMs) <|
    Writes.all hv (Protocol.wire_structs v (CreatePartitionsTopicResult37.conforms hv) t.Results) <|
    Writes.done

/-- There is nothing that may not be nil. -/
def CreatePartitionsResponse.Full (_v : Int16) (_t : CreatePartitionsResponse) : Prop := True

theorem CreatePartitionsResponse.valid {v : Int16} (hv : 0 ≤ v) (t : CreatePartitionsResponse) (h : t.Fits v) (_hf : t.Full v) :
    Protocol.CreatePartitionsResponse.Valid true v (CreatePartitionsResponse.val t) :=
  Valids.all trivial <|
    Valids.all (valid_structs (fun y h hf => CreatePartitionsTopicResult37.valid hv y h hf) (h.Results) (fun _ _ => trivial)) <|
    trivial

/-- What `CreatePartitionsResponse` holds after reading the value `x` into `t0`. -/
def CreatePartitionsResponse.of (v : Int16) (x : Val) (t0 : CreatePartitionsResponse) : CreatePartitionsResponse :=
  { ThrottleTimeMs := (x.get "ThrottleTimeMs").toInt32,
    Results := (x.get "Results").toSliceOr (fun y => CreatePartitionsTopicResult37.of v y {}) t0.Results }

theorem CreatePartitionsResponse.decodes {v : Int16} (hv : 0 ≤ v) (x : Val) (h : Protocol.CreatePartitionsResponse.Valid false v x) (t0 : CreatePartitionsResponse) :
    Reads (CreatePartitionsResponse.decode v t0) (Protocol.CreatePartitionsResponse.wire false v x) (CreatePartitionsResponse.of v x t0) :=
  Reads.congr (((Step.field (set := fun (t : CreatePartitionsResponse) x => { t with ThrottleTimeMs := x }) (read_int32 (Fields.Valid.head (h) hv)))
      |>.andThen (Step.readStructs (get := fun (t : CreatePartitionsResponse) => t.Results) (set := fun (t : CreatePartitionsResponse) x => { t with Results := x }) (fun y hy => CreatePartitionsTopicResult37.decodes hv y hy {}) (Fields.Valid.head (Fields.Valid.tail h) hv)) : Step _ _ _) t0)
    (Writes.eq (fs := Protocol.CreatePartitionsResponse) (v := v) (x := x) <| Writes.all hv rfl <| Writes.all hv rfl <| Writes.done).symm rfl

theorem CreatePartitionsResponse.parses {v : Int16} (hv : 0 ≤ v) (t0 : CreatePartitionsResponse) :
    Parses (CreatePartitionsResponse.decode v t0) ((Ty.struct Protocol.CreatePartitionsResponse).parse v) (fun x => CreatePartitionsResponse.of v x t0) :=
  FParses.parses (fs := Protocol.CreatePartitionsResponse)
    (FParses.field hv (set := fun (t : CreatePartitionsResponse) x => { t with ThrottleTimeMs := x }) par_int32 <|
    FParses.structs hv (get := fun (t : CreatePartitionsResponse) => t.Results) (set := fun (t : CreatePartitionsResponse) x => { t with Results := x }) (CreatePartitionsTopicResult37.parses hv {}) <|
    FParses.done)
    (by simp only [CreatePartitionsResponse.decode, Dec.andThen_nop]) (Fields.distinct_nodup _ (by decide +kernel)) (fun _ _ => rfl) t0

theorem CreatePartitionsResponse.shown {v : Int16} (hv : 0 ≤ v) (x : Val) (h : Protocol.CreatePartitionsResponse.Typed v x) :
    Protocol.CreatePartitionsResponse.shows v x (CreatePartitionsResponse.val (CreatePartitionsResponse.of v x {})) = true :=
  Shows.all hv (show_int32 (Fields.Typed.head (h) hv)) <|
    Shows.all hv (show_structs (f := CreatePartitionsTopicResult37.val) (g := fun y => CreatePartitionsTopicResult37.of v y {}) (fun y hy => CreatePartitionsTopicResult37.shown hv y hy) (Fields.Typed.head (Fields.Typed.tail h) hv)) <|
    rfl

end Kafka.Msg
