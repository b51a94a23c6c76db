import Verif.Message.KeptLemmas
import Verif.Gen.Proof.StopReplica
/-!
Generated by tools/gen_messages.py: what is in the StopReplica messages after an error.
-/
set_option linter.unusedVariables false
namespace Kafka.Msg

/-- message/messages.gen.go:2530-2545 `StopReplicaPartitionV05.Decode`, with the receiver kept -/
def StopReplicaPartitionV05.decodeK (version : Int16) : KDec StopReplicaPartitionV05 :=
    KDec.onlyIf (version ≥ 0 ∧ version ≤ 0) (KDec.field Dec.string [] (fun t x => { t with TopicName := x })) ;|>
    KDec.onlyIf (version ≥ 0 ∧ version ≤ 0) (KDec.field Dec.int32 0 (fun t x => { t with PartitionIndex := x }))

/-- Where the fields of `StopReplicaPartitionV05` end. -/
def StopReplicaPartitionV05.ends (version : Int16) (t : StopReplicaPartitionV05) : Nat → Nat :=
  Cut.ends 0 [Wire.when (version ≥ 0 ∧ version ≤ 0) (Wire.string t.TopicName),
    Wire.when (version ≥ 0 ∧ version ≤ 0) (Wire.int32 t.PartitionIndex)]

/-- What is left of `t` if only its first `n` bytes are there. -/
def StopReplicaPartitionV05.cut (version : Int16) (n : Nat) (t : StopReplicaPartitionV05) : StopReplicaPartitionV05 :=
  { TopicName := Cut.gate (version ≥ 0 ∧ version ≤ 0) (Cut.field n (t.ends version 0) t.TopicName []) [],
    PartitionIndex := Cut.gate (version ≥ 0 ∧ version ≤ 0) (Cut.field n (t.ends version 1) t.PartitionIndex 0) 0 }

/-- The same after the first `k` statements of `Decode`. -/
def StopReplicaPartitionV05.cutAt (version : Int16) (t : StopReplicaPartitionV05) (k n : Nat) : StopReplicaPartitionV05 :=
  { TopicName := upto k 0 (Cut.gate (version ≥ 0 ∧ version ≤ 0) (Cut.field n (t.ends version 0) t.TopicName []) []) [],
    PartitionIndex := upto k 1 (Cut.gate (version ≥ 0 ∧ version ≤ 0) (Cut.field n (t.ends version 1) t.PartitionIndex 0) 0) 0 }

/-- The first `k` fields of `y`, and zeros. -/
def StopReplicaPartitionV05.first (k : Nat) (y : StopReplicaPartitionV05) : StopReplicaPartitionV05 :=
  { TopicName := upto k 0 y.TopicName [],
    PartitionIndex := upto k 1 y.PartitionIndex 0 }

/-- `r` is a beginning of `y`, and zeros. -/
def StopReplicaPartitionV05.Part (r y : StopReplicaPartitionV05) : Prop :=
  (∃ k, k < 2 ∧ r = y.first k)

/-- `StopReplicaPartitionV05` with its receiver kept. -/
def StopReplicaPartitionV05.keeps : KeptMsg StopReplicaPartitionV05.type := { decode := StopReplicaPartitionV05.decodeK, cut := StopReplicaPartitionV05.cut, Part := StopReplicaPartitionV05.Part }

theorem StopReplicaPartitionV05.sameK (version : Int16) : KStep (StopReplicaPartitionV05.decodeK version) (StopReplicaPartitionV05.decode version) :=
  (KStep.onlyIf (KStep.field))
    |>.andThen (KStep.onlyIf (KStep.field))
theorem StopReplicaPartitionV05.cutsK (version : Int16) (t : StopReplicaPartitionV05) (h : t.Fits version) :
    Cuts (StopReplicaPartitionV05.decodeK version) 0 (StopReplicaPartitionV05.wire version t) (StopReplicaPartitionV05.ends version t 1) (StopReplicaPartitionV05.cutAt version t 0) (StopReplicaPartitionV05.cutAt version t 2) :=
  (.optField (fun hc => reads_string (h.TopicName hc)) (fun _ => rfl) (fun _ => rfl) : Cuts _ 0 _ (StopReplicaPartitionV05.ends version t 0) (StopReplicaPartitionV05.cutAt version t 0) (StopReplicaPartitionV05.cutAt version t 1))
    |>.andThen (.optField (fun _ => reads_int32 t.PartitionIndex) (fun _ => rfl) (fun _ => rfl) : Cuts _ (StopReplicaPartitionV05.ends version t 0) _ (StopReplicaPartitionV05.ends version t 1) (StopReplicaPartitionV05.cutAt version t 1) (StopReplicaPartitionV05.cutAt version t 2))
theorem StopReplicaPartitionV05.partsK (version : Int16) : Parts (StopReplicaPartitionV05.decodeK version) (StopReplicaPartitionV05.first 0) (StopReplicaPartitionV05.first 2) (fun r y => ((r = StopReplicaPartitionV05.first 0 y) ∨ (r = StopReplicaPartitionV05.first 1 y))) :=
  (.onlyIf (.field Longer.string (fun _ => rfl) (fun _ _ => rfl) (fun _ _ => rfl) (fun _ => rfl)) (fun _ => rfl) : Parts (KDec.onlyIf (version ≥ 0 ∧ version ≤ 0) (KDec.field Dec.string [] (fun t x => { t with TopicName := x }))) (StopReplicaPartitionV05.first 0) (StopReplicaPartitionV05.first 1) (fun r y => r = StopReplicaPartitionV05.first 0 y))
    |>.andThen (.onlyIf (.field Longer.int32 (fun _ => rfl) (fun _ _ => rfl) (fun _ _ => rfl) (fun _ => rfl)) (fun _ => rfl) : Parts (KDec.onlyIf (version ≥ 0 ∧ version ≤ 0) (KDec.field Dec.int32 0 (fun t x => { t with PartitionIndex := x }))) (StopReplicaPartitionV05.first 1) (StopReplicaPartitionV05.first 2) (fun r y => r = StopReplicaPartitionV05.first 1 y))
theorem StopReplicaPartitionV05.filled (version : Int16) : FilledStep 6 32774 (StopReplicaPartitionV05.decode version) :=
  ((FilledStep.onlyIf (FilledStep.field .string))
    |>.andThen (FilledStep.onlyIf (FilledStep.field .int32))).mono (by decide) (by decide)
theorem StopReplicaPartitionV05.part_of (r y : StopReplicaPartitionV05) (h : ((r = StopReplicaPartitionV05.first 0 y) ∨ (r = StopReplicaPartitionV05.first 1 y))) : StopReplicaPartitionV05.Part r y :=
  match h with
    | (.inl h) => ⟨0, by decide, h⟩
    | (.inr h) => ⟨1, by decide, h⟩
theorem StopReplicaPartitionV05.keeps_holds : StopReplicaPartitionV05.keeps.Holds StopReplicaPartitionV05.layout :=
  KeptMsg.holds StopReplicaPartitionV05.lawful StopReplicaPartitionV05.sameK (stop := fun v t => StopReplicaPartitionV05.ends v t 1) (c := fun v t => StopReplicaPartitionV05.cutAt v t 0) (fun _ _ _ => rfl) StopReplicaPartitionV05.cutsK (c0 := StopReplicaPartitionV05.first 0) rfl StopReplicaPartitionV05.partsK StopReplicaPartitionV05.part_of StopReplicaPartitionV05.filled (by decide) (by decide)

/-- message/messages.gen.go:2575-2590 `StopReplicaTopic5.Decode`, with the receiver kept -/
def StopReplicaTopic5.decodeK (version : Int16) : KDec StopReplicaTopic5 :=
    KDec.onlyIf (version ≥ 1) (KDec.field Dec.string [] (fun t x => { t with Name := x })) ;|>
    KDec.onlyIf (version ≥ 1) (KDec.field Dec.int32Array none (fun t x => { t with PartitionIndexes := x }))

/-- Where the fields of `StopReplicaTopic5` end. -/
def StopReplicaTopic5.ends (version : Int16) (t : StopReplicaTopic5) : Nat → Nat :=
  Cut.ends 0 [Wire.when (version ≥ 1) (Wire.string t.Name),
    Wire.when (version ≥ 1) (Wire.int32Array t.PartitionIndexes)]

/-- What is left of `t` if only its first `n` bytes are there. -/
def StopReplicaTopic5.cut (version : Int16) (n : Nat) (t : StopReplicaTopic5) : StopReplicaTopic5 :=
  { Name := Cut.gate (version ≥ 1) (Cut.field n (t.ends version 0) t.Name []) [],
    PartitionIndexes := Cut.gate (version ≥ 1) (Cut.field n (t.ends version 1) t.PartitionIndexes none) none }

/-- The same after the first `k` statements of `Decode`. -/
def StopReplicaTopic5.cutAt (version : Int16) (t : StopReplicaTopic5) (k n : Nat) : StopReplicaTopic5 :=
  { Name := upto k 0 (Cut.gate (version ≥ 1) (Cut.field n (t.ends version 0) t.Name []) []) [],
    PartitionIndexes := upto k 1 (Cut.gate (version ≥ 1) (Cut.field n (t.ends version 1) t.PartitionIndexes none) none) none }

/-- The first `k` fields of `y`, and zeros. -/
def StopReplicaTopic5.first (k : Nat) (y : StopReplicaTopic5) : StopReplicaTopic5 :=
  { Name := upto k 0 y.Name [],
    PartitionIndexes := upto k 1 y.PartitionIndexes none }

/-- `r` is a beginning of `y`, and zeros. -/
def StopReplicaTopic5.Part (r y : StopReplicaTopic5) : Prop :=
  (∃ k, k < 2 ∧ r = y.first k)

/-- `StopReplicaTopic5` with its receiver kept. -/
def StopReplicaTopic5.keeps : KeptMsg StopReplicaTopic5.type := { decode := StopReplicaTopic5.decodeK, cut := StopReplicaTopic5.cut, Part := StopReplicaTopic5.Part }

theorem StopReplicaTopic5.sameK (version : Int16) : KStep (StopReplicaTopic5.decodeK version) (StopReplicaTopic5.decode version) :=
  (KStep.onlyIf (KStep.field))
    |>.andThen (KStep.onlyIf (KStep.field))
theorem StopReplicaTopic5.cutsK (version : Int16) (t : StopReplicaTopic5) (h : t.Fits version) :
    Cuts (StopReplicaTopic5.decodeK version) 0 (StopReplicaTopic5.wire version t) (StopReplicaTopic5.ends version t 1) (StopReplicaTopic5.cutAt version t 0) (StopReplicaTopic5.cutAt version t 2) :=
  (.optField (fun hc => reads_string (h.Name hc)) (fun _ => rfl) (fun _ => rfl) : Cuts _ 0 _ (StopReplicaTopic5.ends version t 0) (StopReplicaTopic5.cutAt version t 0) (StopReplicaTopic5.cutAt version t 1))
    |>.andThen (.optField (fun hc => reads_int32Array (h.PartitionIndexes hc)) (fun _ => rfl) (fun _ => rfl) : Cuts _ (StopReplicaTopic5.ends version t 0) _ (StopReplicaTopic5.ends version t 1) (StopReplicaTopic5.cutAt version t 1) (StopReplicaTopic5.cutAt version t 2))
theorem StopReplicaTopic5.partsK (version : Int16) : Parts (StopReplicaTopic5.decodeK version) (StopReplicaTopic5.first 0) (StopReplicaTopic5.first 2) (fun r y => ((r = StopReplicaTopic5.first 0 y) ∨ (r = StopReplicaTopic5.first 1 y))) :=
  (.onlyIf (.field Longer.string (fun _ => rfl) (fun _ _ => rfl) (fun _ _ => rfl) (fun _ => rfl)) (fun _ => rfl) : Parts (KDec.onlyIf (version ≥ 1) (KDec.field Dec.string [] (fun t x => { t with Name := x }))) (StopReplicaTopic5.first 0) (StopReplicaTopic5.first 1) (fun r y => r = StopReplicaTopic5.first 0 y))
    |>.andThen (.onlyIf (.field Longer.int32Array (fun _ => rfl) (fun _ _ => rfl) (fun _ _ => rfl) (fun _ => rfl)) (fun _ => rfl) : Parts (KDec.onlyIf (version ≥ 1) (KDec.field Dec.int32Array none (fun t x => { t with PartitionIndexes := x }))) (StopReplicaTopic5.first 1) (StopReplicaTopic5.first 2) (fun r y => r = StopReplicaTopic5.first 1 y))
theorem StopReplicaTopic5.filled (version : Int16) : FilledStep 6 8589934600 (StopReplicaTopic5.decode version) :=
  ((FilledStep.onlyIf (FilledStep.field .string))
    |>.andThen (FilledStep.onlyIf (FilledStep.field .int32Array))).mono (by decide) (by decide)
theorem StopReplicaTopic5.part_of (r y : StopReplicaTopic5) (h : ((r = StopReplicaTopic5.first 0 y) ∨ (r = StopReplicaTopic5.first 1 y))) : StopReplicaTopic5.Part r y :=
  match h with
    | (.inl h) => ⟨0, by decide, h⟩
    | (.inr h) => ⟨1, by decide, h⟩
theorem StopReplicaTopic5.keeps_holds : StopReplicaTopic5.keeps.Holds StopReplicaTopic5.layout :=
  KeptMsg.holds StopReplicaTopic5.lawful StopReplicaTopic5.sameK (stop := fun v t => StopReplicaTopic5.ends v t 1) (c := fun v t => StopReplicaTopic5.cutAt v t 0) (fun _ _ _ => rfl) StopReplicaTopic5.cutsK (c0 := StopReplicaTopic5.first 0) rfl StopReplicaTopic5.partsK StopReplicaTopic5.part_of StopReplicaTopic5.filled (by decide) (by decide)

/-- message/messages.gen.go:2449-2500 `StopReplicaRequest.Decode`, with the receiver kept -/
def StopReplicaRequest.decodeK (version : Int16) : KDec StopReplicaRequest :=
    KDec.field Dec.int32 0 (fun t x => { t with ControllerId := x }) ;|>
    KDec.field Dec.int32 0 (fun t x => { t with ControllerEpoch := x }) ;|>
    KDec.onlyIf (version ≥ 1) (KDec.field Dec.int64 0 (fun t x => { t with BrokerEpoch := x })) ;|>
    KDec.field Dec.bool false (fun t x => { t with DeletePartitions := x }) ;|>
    KDec.onlyIf (version ≥ 0 ∧ version ≤ 0) (KDec.fieldStructs (StopReplicaPartitionV05.decodeK version {}) {} (fun t x => { t with UngroupedPartitions := x })) ;|>
    KDec.onlyIf (version ≥ 1) (KDec.fieldStructs (StopReplicaTopic5.decodeK version {}) {} (fun t x => { t with Topics := x }))

/-- Where the fields of `StopReplicaRequest` end. -/
def StopReplicaRequest.ends (version : Int16) (t : StopReplicaRequest) : Nat → Nat :=
  Cut.ends 0 [Wire.int32 t.ControllerId,
    Wire.int32 t.ControllerEpoch,
    Wire.when (version ≥ 1) (Wire.int64 t.BrokerEpoch),
    Wire.bool t.DeletePartitions,
    Wire.when (version ≥ 0 ∧ version ≤ 0) (Wire.array (StopReplicaPartitionV05.wire version) t.UngroupedPartitions),
    Wire.when (version ≥ 1) (Wire.array (StopReplicaTopic5.wire version) t.Topics)]

/-- What is left of `t` if only its first `n` bytes are there. -/
def StopReplicaRequest.cut (version : Int16) (n : Nat) (t : StopReplicaRequest) : StopReplicaRequest :=
  { ControllerId := Cut.field n (t.ends version 0) t.ControllerId 0,
    ControllerEpoch := Cut.field n (t.ends version 1) t.ControllerEpoch 0,
    BrokerEpoch := Cut.gate (version ≥ 1) (Cut.field n (t.ends version 2) t.BrokerEpoch 0) 0,
    DeletePartitions := Cut.field n (t.ends version 3) t.DeletePartitions false,
    UngroupedPartitions := Cut.gate (version ≥ 0 ∧ version ≤ 0) (Cut.array n (t.ends version 3) (StopReplicaPartitionV05.wire version) (fun x => x.seen version {}) {} t.UngroupedPartitions) none,
    Topics := Cut.gate (version ≥ 1) (Cut.array n (t.ends version 4) (StopReplicaTopic5.wire version) (fun x => x.seen version {}) {} t.Topics) none }

/-- The same after the first `k` statements of `Decode`. -/
def StopReplicaRequest.cutAt (version : Int16) (t : StopReplicaRequest) (k n : Nat) : StopReplicaRequest :=
  { ControllerId := upto k 0 (Cut.field n (t.ends version 0) t.ControllerId 0) 0,
    ControllerEpoch := upto k 1 (Cut.field n (t.ends version 1) t.ControllerEpoch 0) 0,
    BrokerEpoch := upto k 2 (Cut.gate (version ≥ 1) (Cut.field n (t.ends version 2) t.BrokerEpoch 0) 0) 0,
    DeletePartitions := upto k 3 (Cut.field n (t.ends version 3) t.DeletePartitions false) false,
    UngroupedPartitions := upto k 4 (Cut.gate (version ≥ 0 ∧ version ≤ 0) (Cut.array n (t.ends version 3) (StopReplicaPartitionV05.wire version) (fun x => x.seen version {}) {} t.UngroupedPartitions) none) none,
    Topics := upto k 5 (Cut.gate (version ≥ 1) (Cut.array n (t.ends version 4) (StopReplicaTopic5.wire version) (fun x => x.seen version {}) {} t.Topics) none) none }

/-- The first `k` fields of `y`, and zeros. -/
def StopReplicaRequest.first (k : Nat) (y : StopReplicaRequest) : StopReplicaRequest :=
  { ControllerId := upto k 0 y.ControllerId 0,
    ControllerEpoch := upto k 1 y.ControllerEpoch 0,
    BrokerEpoch := upto k 2 y.BrokerEpoch 0,
    DeletePartitions := upto k 3 y.DeletePartitions false,
    UngroupedPartitions := upto k 4 y.UngroupedPartitions none,
    Topics := upto k 5 y.Topics none }

/-- `r` is a beginning of `y`, and zeros. -/
def StopReplicaRequest.Part (r y : StopReplicaRequest) : Prop :=
  (∃ k, k < 6 ∧ r = y.first k) ∨
    Cut.begun {} (fun t => t.UngroupedPartitions) (fun t x => { t with UngroupedPartitions := x }) (StopReplicaRequest.first 4) r y ∨
    Cut.begun {} (fun t => t.Topics) (fun t x => { t with Topics := x }) (StopReplicaRequest.first 5) r y

/-- `StopReplicaRequest` with its receiver kept. -/
def StopReplicaRequest.keeps : KeptMsg StopReplicaRequest.type := { decode := StopReplicaRequest.decodeK, cut := StopReplicaRequest.cut, Part := StopReplicaRequest.Part }

theorem StopReplicaRequest.sameK (version : Int16) : KStep (StopReplicaRequest.decodeK version) (StopReplicaRequest.decode version) :=
  (KStep.field)
    |>.andThen (KStep.field)
    |>.andThen (KStep.onlyIf (KStep.field))
    |>.andThen (KStep.field)
    |>.andThen (KStep.onlyIf (KStep.structs (fun _ => rfl) (StopReplicaPartitionV05.sameK version {})))
    |>.andThen (KStep.onlyIf (KStep.structs (fun _ => rfl) (StopReplicaTopic5.sameK version {})))
theorem StopReplicaRequest.cutsK (version : Int16) (t : StopReplicaRequest) (h : t.Fits version) :
    Cuts (StopReplicaRequest.decodeK version) 0 (StopReplicaRequest.wire version t) (StopReplicaRequest.ends version t 5) (StopReplicaRequest.cutAt version t 0) (StopReplicaRequest.cutAt version t 6) :=
  (.field (reads_int32 t.ControllerId) (fun _ => rfl) (fun _ => rfl) : Cuts _ 0 _ (StopReplicaRequest.ends version t 0) (StopReplicaRequest.cutAt version t 0) (StopReplicaRequest.cutAt version t 1))
    |>.andThen (.field (reads_int32 t.ControllerEpoch) (fun _ => rfl) (fun _ => rfl) : Cuts _ (StopReplicaRequest.ends version t 0) _ (StopReplicaRequest.ends version t 1) (StopReplicaRequest.cutAt version t 1) (StopReplicaRequest.cutAt version t 2))
    |>.andThen (.optField (fun _ => reads_int64 t.BrokerEpoch) (fun _ => rfl) (fun _ => rfl) : Cuts _ (StopReplicaRequest.ends version t 1) _ (StopReplicaRequest.ends version t 2) (StopReplicaRequest.cutAt version t 2) (StopReplicaRequest.cutAt version t 3))
    |>.andThen (.field (reads_bool t.DeletePartitions) (fun _ => rfl) (fun _ => rfl) : Cuts _ (StopReplicaRequest.ends version t 2) _ (StopReplicaRequest.ends version t 3) (StopReplicaRequest.cutAt version t 3) (StopReplicaRequest.cutAt version t 4))
    |>.andThen (.optStructs (StopReplicaPartitionV05.sameK version {}) (fun x hx => StopReplicaPartitionV05.reads version x hx {}) h.UngroupedPartitions (fun _ => rfl) (fun _ => rfl) : Cuts _ (StopReplicaRequest.ends version t 3) _ (StopReplicaRequest.ends version t 4) (StopReplicaRequest.cutAt version t 4) (StopReplicaRequest.cutAt version t 5))
    |>.andThen (.optStructs (StopReplicaTopic5.sameK version {}) (fun x hx => StopReplicaTopic5.reads version x hx {}) h.Topics (fun _ => rfl) (fun _ => rfl) : Cuts _ (StopReplicaRequest.ends version t 4) _ (StopReplicaRequest.ends version t 5) (StopReplicaRequest.cutAt version t 5) (StopReplicaRequest.cutAt version t 6))
theorem StopReplicaRequest.partsK (version : Int16) : Parts (StopReplicaRequest.decodeK version) (StopReplicaRequest.first 0) (StopReplicaRequest.first 6) (fun r y => ((((((r = StopReplicaRequest.first 0 y) ∨ (r = StopReplicaRequest.first 1 y)) ∨ (r = StopReplicaRequest.first 2 y)) ∨ (r = StopReplicaRequest.first 3 y)) ∨ (r = StopReplicaRequest.first 4 y ∨ Cut.begun {} (fun t => t.UngroupedPartitions) (fun t x => { t with UngroupedPartitions := x }) (StopReplicaRequest.first 4) r y)) ∨ (r = StopReplicaRequest.first 5 y ∨ Cut.begun {} (fun t => t.Topics) (fun t x => { t with Topics := x }) (StopReplicaRequest.first 5) r y))) :=
  (.field Longer.int32 (fun _ => rfl) (fun _ _ => rfl) (fun _ _ => rfl) (fun _ => rfl) : Parts (KDec.field Dec.int32 0 (fun t x => { t with ControllerId := x })) (StopReplicaRequest.first 0) (StopReplicaRequest.first 1) (fun r y => r = StopReplicaRequest.first 0 y))
    |>.andThen (.field Longer.int32 (fun _ => rfl) (fun _ _ => rfl) (fun _ _ => rfl) (fun _ => rfl) : Parts (KDec.field Dec.int32 0 (fun t x => { t with ControllerEpoch := x })) (StopReplicaRequest.first 1) (StopReplicaRequest.first 2) (fun r y => r = StopReplicaRequest.first 1 y))
    |>.andThen (.onlyIf (.field Longer.int64 (fun _ => rfl) (fun _ _ => rfl) (fun _ _ => rfl) (fun _ => rfl)) (fun _ => rfl) : Parts (KDec.onlyIf (version ≥ 1) (KDec.field Dec.int64 0 (fun t x => { t with BrokerEpoch := x }))) (StopReplicaRequest.first 2) (StopReplicaRequest.first 3) (fun r y => r = StopReplicaRequest.first 2 y))
    |>.andThen (.field Longer.bool (fun _ => rfl) (fun _ _ => rfl) (fun _ _ => rfl) (fun _ => rfl) : Parts (KDec.field Dec.bool false (fun t x => { t with DeletePartitions := x })) (StopReplicaRequest.first 3) (StopReplicaRequest.first 4) (fun r y => r = StopReplicaRequest.first 3 y))
    |>.andThen (.onlyIf (.structs (get := fun (t : StopReplicaRequest) => t.UngroupedPartitions) ((StopReplicaPartitionV05.partsK version).longer {}) (fun _ => rfl) (fun _ => rfl) (fun _ _ => rfl) (fun _ _ => rfl) (fun _ _ => rfl) (fun _ => rfl) (fun _ => rfl)) (fun _ => rfl) : Parts (KDec.onlyIf (version ≥ 0 ∧ version ≤ 0) (KDec.fieldStructs (StopReplicaPartitionV05.decodeK version {}) {} (fun t x => { t with UngroupedPartitions := x }))) (StopReplicaRequest.first 4) (StopReplicaRequest.first 5) (fun r y => r = StopReplicaRequest.first 4 y ∨ Cut.begun {} (fun t => t.UngroupedPartitions) (fun t x => { t with UngroupedPartitions := x }) (StopReplicaRequest.first 4) r y))
    |>.andThen (.onlyIf (.structs (get := fun (t : StopReplicaRequest) => t.Topics) ((StopReplicaTopic5.partsK version).longer {}) (fun _ => rfl) (fun _ => rfl) (fun _ _ => rfl) (fun _ _ => rfl) (fun _ _ => rfl) (fun _ => rfl) (fun _ => rfl)) (fun _ => rfl) : Parts (KDec.onlyIf (version ≥ 1) (KDec.fieldStructs (StopReplicaTopic5.decodeK version {}) {} (fun t x => { t with Topics := x }))) (StopReplicaRequest.first 5) (StopReplicaRequest.first 6) (fun r y => r = StopReplicaRequest.first 5 y ∨ Cut.begun {} (fun t => t.Topics) (fun t x => { t with Topics := x }) (StopReplicaRequest.first 5) r y))
theorem StopReplicaRequest.filled (version : Int16) : FilledStep 25 21474836492 (StopReplicaRequest.decode version) :=
  ((FilledStep.field .int32)
    |>.andThen (FilledStep.field .int32)
    |>.andThen (FilledStep.onlyIf (FilledStep.field .int64))
    |>.andThen (FilledStep.field .bool)
    |>.andThen (FilledStep.onlyIf (FilledStep.structs (StopReplicaPartitionV05.filled version {})))
    |>.andThen (FilledStep.onlyIf (FilledStep.structs (StopReplicaTopic5.filled version {})))).mono (by decide) (by decide)
theorem StopReplicaRequest.part_of (r y : StopReplicaRequest) (h : ((((((r = StopReplicaRequest.first 0 y) ∨ (r = StopReplicaRequest.first 1 y)) ∨ (r = StopReplicaRequest.first 2 y)) ∨ (r = StopReplicaRequest.first 3 y)) ∨ (r = StopReplicaRequest.first 4 y ∨ Cut.begun {} (fun t => t.UngroupedPartitions) (fun t x => { t with UngroupedPartitions := x }) (StopReplicaRequest.first 4) r y)) ∨ (r = StopReplicaRequest.first 5 y ∨ Cut.begun {} (fun t => t.Topics) (fun t x => { t with Topics := x }) (StopReplicaRequest.first 5) r y))) : StopReplicaRequest.Part r y :=
  match h with
    | (.inl (.inl (.inl (.inl (.inl h))))) => .inl ⟨0, by decide, h⟩
    | (.inl (.inl (.inl (.inl (.inr h))))) => .inl ⟨1, by decide, h⟩
    | (.inl (.inl (.inl (.inr h)))) => .inl ⟨2, by decide, h⟩
    | (.inl (.inl (.inr h))) => .inl ⟨3, by decide, h⟩
    | (.inl (.inr (.inl h))) => .inl ⟨4, by decide, h⟩
    | (.inl (.inr (.inr h))) => (.inr (.inl h))
    | (.inr (.inl h)) => .inl ⟨5, by decide, h⟩
    | (.inr (.inr h)) => (.inr (.inr h))
theorem StopReplicaRequest.keeps_holds : StopReplicaRequest.keeps.Holds StopReplicaRequest.layout :=
  KeptMsg.holds StopReplicaRequest.lawful StopReplicaRequest.sameK (stop := fun v t => StopReplicaRequest.ends v t 5) (c := fun v t => StopReplicaRequest.cutAt v t 0) (fun _ _ _ => rfl) StopReplicaRequest.cutsK (c0 := StopReplicaRequest.first 0) rfl StopReplicaRequest.partsK StopReplicaRequest.part_of StopReplicaRequest.filled (by decide) (by decide)

/-- message/messages.gen.go:2666-2681 `StopReplicaPartitionError5.Decode`, with the receiver kept -/
def StopReplicaPartitionError5.decodeK (_version : Int16) : KDec StopReplicaPartitionError5 :=
    KDec.field Dec.string [] (fun t x => { t with TopicName := x }) ;|>
    KDec.field Dec.int32 0 (fun t x => { t with PartitionIndex := x }) ;|>
    KDec.field Dec.int16 0 (fun t x => { t with ErrorCode := x })

/-- Where the fields of `StopReplicaPartitionError5` end. -/
def StopReplicaPartitionError5.ends (_version : Int16) (t : StopReplicaPartitionError5) : Nat → Nat :=
  Cut.ends 0 [Wire.string t.TopicName,
    Wire.int32 t.PartitionIndex,
    Wire.int16 t.ErrorCode]

/-- What is left of `t` if only its first `n` bytes are there. -/
def StopReplicaPartitionError5.cut (version : Int16) (n : Nat) (t : StopReplicaPartitionError5) : StopReplicaPartitionError5 :=
  { TopicName := Cut.field n (t.ends version 0) t.TopicName [],
    PartitionIndex := Cut.field n (t.ends version 1) t.PartitionIndex 0,
    ErrorCode := Cut.field n (t.ends version 2) t.ErrorCode 0 }

/-- The same after the first `k` statements of `Decode`. -/
def StopReplicaPartitionError5.cutAt (version : Int16) (t : StopReplicaPartitionError5) (k n : Nat) : StopReplicaPartitionError5 :=
  { TopicName := upto k 0 (Cut.field n (t.ends version 0) t.TopicName []) [],
    PartitionIndex := upto k 1 (Cut.field n (t.ends version 1) t.PartitionIndex 0) 0,
    ErrorCode := upto k 2 (Cut.field n (t.ends version 2) t.ErrorCode 0) 0 }

/-- The first `k` fields of `y`, and zeros. -/
def StopReplicaPartitionError5.first (k : Nat) (y : StopReplicaPartitionError5) : StopReplicaPartitionError5 :=
  { TopicName := upto k 0 y.TopicName [],
    PartitionIndex := upto k 1 y.PartitionIndex 0,
    ErrorCode := upto k 2 y.ErrorCode 0 }

/-- `r` is a beginning of `y`, and zeros. -/
def StopReplicaPartitionError5.Part (r y : StopReplicaPartitionError5) : Prop :=
  (∃ k, k < 3 ∧ r = y.first k)

/-- `StopReplicaPartitionError5` with its receiver kept. -/
def StopReplicaPartitionError5.keeps : KeptMsg StopReplicaPartitionError5.type := { decode := StopReplicaPartitionError5.decodeK, cut := StopReplicaPartitionError5.cut, Part := StopReplicaPartitionError5.Part }

theorem StopReplicaPartitionError5.sameK (version : Int16) : KStep (StopReplicaPartitionError5.decodeK version) (StopReplicaPartitionError5.decode version) :=
  (KStep.field)
    |>.andThen (KStep.field)
    |>.andThen (KStep.field)
theorem StopReplicaPartitionError5.cutsK (version : Int16) (t : StopReplicaPartitionError5) (h : t.Fits version) :
    Cuts (StopReplicaPartitionError5.decodeK version) 0 (StopReplicaPartitionError5.wire version t) (StopReplicaPartitionError5.ends version t 2) (StopReplicaPartitionError5.cutAt version t 0) (StopReplicaPartitionError5.cutAt version t 3) :=
  (.field (reads_string h.TopicName) (fun _ => rfl) (fun _ => rfl) : Cuts _ 0 _ (StopReplicaPartitionError5.ends version t 0) (StopReplicaPartitionError5.cutAt version t 0) (StopReplicaPartitionError5.cutAt version t 1))
    |>.andThen (.field (reads_int32 t.PartitionIndex) (fun _ => rfl) (fun _ => rfl) : Cuts _ (StopReplicaPartitionError5.ends version t 0) _ (StopReplicaPartitionError5.ends version t 1) (StopReplicaPartitionError5.cutAt version t 1) (StopReplicaPartitionError5.cutAt version t 2))
    |>.andThen (.field (reads_int16 t.ErrorCode) (fun _ => rfl) (fun _ => rfl) : Cuts _ (StopReplicaPartitionError5.ends version t 1) _ (StopReplicaPartitionError5.ends version t 2) (StopReplicaPartitionError5.cutAt version t 2) (StopReplicaPartitionError5.cutAt version t 3))
theorem StopReplicaPartitionError5.partsK (version : Int16) : Parts (StopReplicaPartitionError5.decodeK version) (StopReplicaPartitionError5.first 0) (StopReplicaPartitionError5.first 3) (fun r y => (((r = StopReplicaPartitionError5.first 0 y) ∨ (r = StopReplicaPartitionError5.first 1 y)) ∨ (r = StopReplicaPartitionError5.first 2 y))) :=
  (.field Longer.string (fun _ => rfl) (fun _ _ => rfl) (fun _ _ => rfl) (fun _ => rfl) : Parts (KDec.field Dec.string [] (fun t x => { t with TopicName := x })) (StopReplicaPartitionError5.first 0) (StopReplicaPartitionError5.first 1) (fun r y => r = StopReplicaPartitionError5.first 0 y))
    |>.andThen (.field Longer.int32 (fun _ => rfl) (fun _ _ => rfl) (fun _ _ => rfl) (fun _ => rfl) : Parts (KDec.field Dec.int32 0 (fun t x => { t with PartitionIndex := x })) (StopReplicaPartitionError5.first 1) (StopReplicaPartitionError5.first 2) (fun r y => r = StopReplicaPartitionError5.first 1 y))
    |>.andThen (.field Longer.int16 (fun _ => rfl) (fun _ _ => rfl) (fun _ _ => rfl) (fun _ => rfl) : Parts (KDec.field Dec.int16 0 (fun t x => { t with ErrorCode := x })) (StopReplicaPartitionError5.first 2) (StopReplicaPartitionError5.first 3) (fun r y => r = StopReplicaPartitionError5.first 2 y))
theorem StopReplicaPartitionError5.filled (version : Int16) : FilledStep 8 32776 (StopReplicaPartitionError5.decode version) :=
  ((FilledStep.field .string)
    |>.andThen (FilledStep.field .int32)
    |>.andThen (FilledStep.field .int16)).mono (by decide) (by decide)
theorem StopReplicaPartitionError5.part_of (r y : StopReplicaPartitionError5) (h : (((r = StopReplicaPartitionError5.first 0 y) ∨ (r = StopReplicaPartitionError5.first 1 y)) ∨ (r = StopReplicaPartitionError5.first 2 y))) : StopReplicaPartitionError5.Part r y :=
  match h with
    | (.inl (.inl h)) => ⟨0, by decide, h⟩
    | (.inl (.inr h)) => ⟨1, by decide, h⟩
    | (.inr h) => ⟨2, by decide, h⟩
theorem StopReplicaPartitionError5.keeps_holds : StopReplicaPartitionError5.keeps.Holds StopReplicaPartitionError5.layout :=
  KeptMsg.holds StopReplicaPartitionError5.lawful StopReplicaPartitionError5.sameK (stop := fun v t => StopReplicaPartitionError5.ends v t 2) (c := fun v t => StopReplicaPartitionError5.cutAt v t 0) (fun _ _ _ => rfl) StopReplicaPartitionError5.cutsK (c0 := StopReplicaPartitionError5.first 0) rfl StopReplicaPartitionError5.partsK StopReplicaPartitionError5.part_of StopReplicaPartitionError5.filled (by decide) (by decide)

/-- message/messages.gen.go:2621-2641 `StopReplicaResponse.Decode`, with the receiver kept -/
def StopReplicaResponse.decodeK (version : Int16) : KDec StopReplicaResponse :=
    KDec.field Dec.int16 0 (fun t x => { t with ErrorCode := x }) ;|>
    KDec.fieldStructs (StopReplicaPartitionError5.decodeK version {}) {} (fun t x => { t with PartitionErrors := x })

/-- Where the fields of `StopReplicaResponse` end. -/
def StopReplicaResponse.ends (version : Int16) (t : StopReplicaResponse) : Nat → Nat :=
  Cut.ends 0 [Wire.int16 t.ErrorCode,
    Wire.array (StopReplicaPartitionError5.wire version) t.PartitionErrors]

/-- What is left of `t` if only its first `n` bytes are there. -/
def StopReplicaResponse.cut (version : Int16) (n : Nat) (t : StopReplicaResponse) : StopReplicaResponse :=
  { ErrorCode := Cut.field n (t.ends version 0) t.ErrorCode 0,
    PartitionErrors := Cut.array n (t.ends version 0) (StopReplicaPartitionError5.wire version) (fun x => x.seen version {}) {} t.PartitionErrors }

/-- The same after the first `k` statements of `Decode`. -/
def StopReplicaResponse.cutAt (version : Int16) (t : StopReplicaResponse) (k n : Nat) : StopReplicaResponse :=
  { ErrorCode := upto k 0 (Cut.field n (t.ends version 0) t.ErrorCode 0) 0,
    PartitionErrors := upto k 1 (Cut.array n (t.ends version 0) (StopReplicaPartitionError5.wire version) (fun x => x.seen version {}) {} t.PartitionErrors) none }

/-- The first `k` fields of `y`, and zeros. -/
def StopReplicaResponse.first (k : Nat) (y : StopReplicaResponse) : StopReplicaResponse :=
  { ErrorCode := upto k 0 y.ErrorCode 0,
    PartitionErrors := upto k 1 y.PartitionErrors none }

/-- `r` is a beginning of `y`, and zeros. -/
def StopReplicaResponse.Part (r y : StopReplicaResponse) : Prop :=
  (∃ k, k < 2 ∧ r = y.first k) ∨
    Cut.begun {} (fun t => t.PartitionErrors) (fun t x => { t with PartitionErrors := x }) (StopReplicaResponse.first 1) r y

/-- `StopReplicaResponse` with its receiver kept. -/
def StopReplicaResponse.keeps : KeptMsg StopReplicaResponse.type := { decode := StopReplicaResponse.decodeK, cut := StopReplicaResponse.cut, Part := StopReplicaResponse.Part }

theorem StopReplicaResponse.sameK (version : Int16) : KStep (StopReplicaResponse.decodeK version) (StopReplicaResponse.decode version) :=
  (KStep.field)
    |>.andThen (KStep.structs (fun _ => rfl) (StopReplicaPartitionError5.sameK version {}))
theorem StopReplicaResponse.cutsK (version : Int16) (t : StopReplicaResponse) (h : t.Fits version) :
    Cuts (StopReplicaResponse.decodeK version) 0 (StopReplicaResponse.wire version t) (StopReplicaResponse.ends version t 1) (StopReplicaResponse.cutAt version t 0) (StopReplicaResponse.cutAt version t 2) :=
  (.field (reads_int16 t.ErrorCode) (fun _ => rfl) (fun _ => rfl) : Cuts _ 0 _ (StopReplicaResponse.ends version t 0) (StopReplicaResponse.cutAt version t 0) (StopReplicaResponse.cutAt version t 1))
    |>.andThen (.structs (StopReplicaPartitionError5.sameK version {}) (fun x hx => StopReplicaPartitionError5.reads version x hx {}) h.PartitionErrors (fun _ => rfl) (fun _ => rfl) : Cuts _ (StopReplicaResponse.ends version t 0) _ (StopReplicaResponse.ends version t 1) (StopReplicaResponse.cutAt version t 1) (StopReplicaResponse.cutAt version t 2))
theorem StopReplicaResponse.partsK (version : Int16) : Parts (StopReplicaResponse.decodeK version) (StopReplicaResponse.first 0) (StopReplicaResponse.first 2) (fun r y => ((r = StopReplicaResponse.first 0 y) ∨ (r = StopReplicaResponse.first 1 y ∨ Cut.begun {} (fun t => t.PartitionErrors) (fun t x => { t with PartitionErrors := x }) (StopReplicaResponse.first 1) r y))) :=
  (.field Longer.int16 (fun _ => rfl) (fun _ _ => rfl) (fun _ _ => rfl) (fun _ => rfl) : Parts (KDec.field Dec.int16 0 (fun t x => { t with ErrorCode := x })) (StopReplicaResponse.first 0) (StopReplicaResponse.first 1) (fun r y => r = StopReplicaResponse.first 0 y))
    |>.andThen (.structs (get := fun (t : StopReplicaResponse) => t.PartitionErrors) ((StopReplicaPartitionError5.partsK version).longer {}) (fun _ => rfl) (fun _ => rfl) (fun _ _ => rfl) (fun _ _ => rfl) (fun _ _ => rfl) (fun _ => rfl) (fun _ => rfl) : Parts (KDec.fieldStructs (StopReplicaPartitionError5.decodeK version {}) {} (fun t x => { t with PartitionErrors := x })) (StopReplicaResponse.first 1) (StopReplicaResponse.first 2) (fun r y => r = StopReplicaResponse.first 1 y ∨ Cut.begun {} (fun t => t.PartitionErrors) (fun t x => { t with PartitionErrors := x }) (StopReplicaResponse.first 1) r y))
theorem StopReplicaResponse.filled (version : Int16) : FilledStep 6 17179901964 (StopReplicaResponse.decode version) :=
  ((FilledStep.field .int16)
    |>.andThen (FilledStep.structs (StopReplicaPartitionError5.filled version {}))).mono (by decide) (by decide)
theorem StopReplicaResponse.part_of (r y : StopReplicaResponse) (h : ((r = StopReplicaResponse.first 0 y) ∨ (r = StopReplicaResponse.first 1 y ∨ Cut.begun {} (fun t => t.PartitionErrors) (fun t x => { t with PartitionErrors := x }) (StopReplicaResponse.first 1) r y))) : StopReplicaResponse.Part r y :=
  match h with
    | (.inl h) => .inl ⟨0, by decide, h⟩
    | (.inr (.inl h)) => .inl ⟨1, by decide, h⟩
    | (.inr (.inr h)) => (.inr h)
theorem StopReplicaResponse.keeps_holds : StopReplicaResponse.keeps.Holds StopReplicaResponse.layout :=
  KeptMsg.holds StopReplicaResponse.lawful StopReplicaResponse.sameK (stop := fun v t => StopReplicaResponse.ends v t 1) (c := fun v t => StopReplicaResponse.cutAt v t 0) (fun _ _ _ => rfl) StopReplicaResponse.cutsK (c0 := StopReplicaResponse.first 0) rfl StopReplicaResponse.partsK StopReplicaResponse.part_of StopReplicaResponse.filled (by decide) (by decide)

/-- The structures of the StopReplica messages. -/
def keptStopReplica : List (Σ (M : MsgType) (_ : Layout M), KeptMsg M) :=
  [⟨StopReplicaRequest.type, StopReplicaRequest.layout, StopReplicaRequest.keeps⟩,
   ⟨StopReplicaPartitionV05.type, StopReplicaPartitionV05.layout, StopReplicaPartitionV05.keeps⟩,
   ⟨StopReplicaTopic5.type, StopReplicaTopic5.layout, StopReplicaTopic5.keeps⟩,
   ⟨StopReplicaResponse.type, StopReplicaResponse.layout, StopReplicaResponse.keeps⟩,
   ⟨StopReplicaPartitionError5.type, StopReplicaPartitionError5.layout, StopReplicaPartitionError5.keeps⟩]
theorem keptStopReplica_holds : ∀ p ∈ keptStopReplica, p.2.2.Holds p.2.1 := by
  unfold keptStopReplica
  simp only [List.forall_mem_cons]
  exact ⟨StopReplicaRequest.keeps_holds, StopReplicaPartitionV05.keeps_holds, StopReplicaTopic5.keeps_holds, StopReplicaResponse.keeps_holds, StopReplicaPartitionError5.keeps_holds, fun _ h => absurd h (by simp)⟩

end Kafka.Msg
