import Verif.Message.KeptLemmas
import Verif.Gen.Proof.ListOffset
/-!
Generated by tools/gen_messages.py: what is in the ListOffset messages after an error.
-/
set_option linter.unusedVariables false
namespace Kafka.Msg

/-- message/messages.gen.go:1282-1305 `ListOffsetPartition2.Decode`, with the receiver kept -/
def ListOffsetPartition2.decodeK (version : Int16) : KDec ListOffsetPartition2 :=
    KDec.field Dec.int32 0 (fun t x => { t with PartitionIndex := x }) ;|>
    KDec.onlyIf (version ≥ 4) (KDec.field Dec.int32 0 (fun t x => { t with CurrentLeaderEpoch := x })) ;|>
    KDec.field Dec.int64 0 (fun t x => { t with Timestamp := x }) ;|>
    KDec.onlyIf (version ≥ 0 ∧ version ≤ 0) (KDec.field Dec.int32 0 (fun t x => { t with MaxNumOffsets := x }))

/-- Where the fields of `ListOffsetPartition2` end. -/
def ListOffsetPartition2.ends (version : Int16) (t : ListOffsetPartition2) : Nat → Nat :=
  Cut.ends 0 [Wire.int32 t.PartitionIndex,
    Wire.when (version ≥ 4) (Wire.int32 t.CurrentLeaderEpoch),
    Wire.int64 t.Timestamp,
    Wire.when (version ≥ 0 ∧ version ≤ 0) (Wire.int32 t.MaxNumOffsets)]

/-- What is left of `t` if only its first `n` bytes are there. -/
def ListOffsetPartition2.cut (version : Int16) (n : Nat) (t : ListOffsetPartition2) : ListOffsetPartition2 :=
  { PartitionIndex := Cut.field n (t.ends version 0) t.PartitionIndex 0,
    CurrentLeaderEpoch := Cut.gate (version ≥ 4) (Cut.field n (t.ends version 1) t.CurrentLeaderEpoch 0) 0,
    Timestamp := Cut.field n (t.ends version 2) t.Timestamp 0,
    MaxNumOffsets := Cut.gate (version ≥ 0 ∧ version ≤ 0) (Cut.field n (t.ends version 3) t.MaxNumOffsets 0) 0 }

/-- The same after the first `k` statements of `Decode`. -/
def ListOffsetPartition2.cutAt (version : Int16) (t : ListOffsetPartition2) (k n : Nat) : ListOffsetPartition2 :=
  { PartitionIndex := upto k 0 (Cut.field n (t.ends version 0) t.PartitionIndex 0) 0,
    CurrentLeaderEpoch := upto k 1 (Cut.gate (version ≥ 4) (Cut.field n (t.ends version 1) t.CurrentLeaderEpoch 0) 0) 0,
    Timestamp := upto k 2 (Cut.field n (t.ends version 2) t.Timestamp 0) 0,
    MaxNumOffsets := upto k 3 (Cut.gate (version ≥ 0 ∧ version ≤ 0) (Cut.field n (t.ends version 3) t.MaxNumOffsets 0) 0) 0 }

/-- The first `k` fields of `y`, and zeros. -/
def ListOffsetPartition2.first (k : Nat) (y : ListOffsetPartition2) : ListOffsetPartition2 :=
  { PartitionIndex := upto k 0 y.PartitionIndex 0,
    CurrentLeaderEpoch := upto k 1 y.CurrentLeaderEpoch 0,
    Timestamp := upto k 2 y.Timestamp 0,
    MaxNumOffsets := upto k 3 y.MaxNumOffsets 0 }

/-- `r` is a beginning of `y`, and zeros. -/
def ListOffsetPartition2.Part (r y : ListOffsetPartition2) : Prop :=
  (∃ k, k < 4 ∧ r = y.first k)

/-- `ListOffsetPartition2` with its receiver kept. -/
def ListOffsetPartition2.keeps : KeptMsg ListOffsetPartition2.type := { decode := ListOffsetPartition2.decodeK, cut := ListOffsetPartition2.cut, Part := ListOffsetPartition2.Part }

theorem ListOffsetPartition2.sameK (version : Int16) : KStep (ListOffsetPartition2.decodeK version) (ListOffsetPartition2.decode version) :=
  (KStep.field)
    |>.andThen (KStep.onlyIf (KStep.field))
    |>.andThen (KStep.field)
    |>.andThen (KStep.onlyIf (KStep.field))
theorem ListOffsetPartition2.cutsK (version : Int16) (t : ListOffsetPartition2) (h : t.Fits version) :
    Cuts (ListOffsetPartition2.decodeK version) 0 (ListOffsetPartition2.wire version t) (ListOffsetPartition2.ends version t 3) (ListOffsetPartition2.cutAt version t 0) (ListOffsetPartition2.cutAt version t 4) :=
  (.field (reads_int32 t.PartitionIndex) (fun _ => rfl) (fun _ => rfl) : Cuts _ 0 _ (ListOffsetPartition2.ends version t 0) (ListOffsetPartition2.cutAt version t 0) (ListOffsetPartition2.cutAt version t 1))
    |>.andThen (.optField (fun _ => reads_int32 t.CurrentLeaderEpoch) (fun _ => rfl) (fun _ => rfl) : Cuts _ (ListOffsetPartition2.ends version t 0) _ (ListOffsetPartition2.ends version t 1) (ListOffsetPartition2.cutAt version t 1) (ListOffsetPartition2.cutAt version t 2))
    |>.andThen (.field (reads_int64 t.Timestamp) (fun _ => rfl) (fun _ => rfl) : Cuts _ (ListOffsetPartition2.ends version t 1) _ (ListOffsetPartition2.ends version t 2) (ListOffsetPartition2.cutAt version t 2) (ListOffsetPartition2.cutAt version t 3))
    |>.andThen (.optField (fun _ => reads_int32 t.MaxNumOffsets) (fun _ => rfl) (fun _ => rfl) : Cuts _ (ListOffsetPartition2.ends version t 2) _ (ListOffsetPartition2.ends version t 3) (ListOffsetPartition2.cutAt version t 3) (ListOffsetPartition2.cutAt version t 4))
theorem ListOffsetPartition2.partsK (version : Int16) : Parts (ListOffsetPartition2.decodeK version) (ListOffsetPartition2.first 0) (ListOffsetPartition2.first 4) (fun r y => ((((r = ListOffsetPartition2.first 0 y) ∨ (r = ListOffsetPartition2.first 1 y)) ∨ (r = ListOffsetPartition2.first 2 y)) ∨ (r = ListOffsetPartition2.first 3 y))) :=
  (.field Longer.int32 (fun _ => rfl) (fun _ _ => rfl) (fun _ _ => rfl) (fun _ => rfl) : Parts (KDec.field Dec.int32 0 (fun t x => { t with PartitionIndex := x })) (ListOffsetPartition2.first 0) (ListOffsetPartition2.first 1) (fun r y => r = ListOffsetPartition2.first 0 y))
    |>.andThen (.onlyIf (.field Longer.int32 (fun _ => rfl) (fun _ _ => rfl) (fun _ _ => rfl) (fun _ => rfl)) (fun _ => rfl) : Parts (KDec.onlyIf (version ≥ 4) (KDec.field Dec.int32 0 (fun t x => { t with CurrentLeaderEpoch := x }))) (ListOffsetPartition2.first 1) (ListOffsetPartition2.first 2) (fun r y => r = ListOffsetPartition2.first 1 y))
    |>.andThen (.field Longer.int64 (fun _ => rfl) (fun _ _ => rfl) (fun _ _ => rfl) (fun _ => rfl) : Parts (KDec.field Dec.int64 0 (fun t x => { t with Timestamp := x })) (ListOffsetPartition2.first 2) (ListOffsetPartition2.first 3) (fun r y => r = ListOffsetPartition2.first 2 y))
    |>.andThen (.onlyIf (.field Longer.int32 (fun _ => rfl) (fun _ _ => rfl) (fun _ _ => rfl) (fun _ => rfl)) (fun _ => rfl) : Parts (KDec.onlyIf (version ≥ 0 ∧ version ≤ 0) (KDec.field Dec.int32 0 (fun t x => { t with MaxNumOffsets := x }))) (ListOffsetPartition2.first 3) (ListOffsetPartition2.first 4) (fun r y => r = ListOffsetPartition2.first 3 y))
theorem ListOffsetPartition2.filled (version : Int16) : FilledStep 20 20 (ListOffsetPartition2.decode version) :=
  ((FilledStep.field .int32)
    |>.andThen (FilledStep.onlyIf (FilledStep.field .int32))
    |>.andThen (FilledStep.field .int64)
    |>.andThen (FilledStep.onlyIf (FilledStep.field .int32))).mono (by decide) (by decide)
theorem ListOffsetPartition2.part_of (r y : ListOffsetPartition2) (h : ((((r = ListOffsetPartition2.first 0 y) ∨ (r = ListOffsetPartition2.first 1 y)) ∨ (r = ListOffsetPartition2.first 2 y)) ∨ (r = ListOffsetPartition2.first 3 y))) : ListOffsetPartition2.Part r y :=
  match h with
    | (.inl (.inl (.inl h))) => ⟨0, by decide, h⟩
    | (.inl (.inl (.inr h))) => ⟨1, by decide, h⟩
    | (.inl (.inr h)) => ⟨2, by decide, h⟩
    | (.inr h) => ⟨3, by decide, h⟩
theorem ListOffsetPartition2.keeps_holds : ListOffsetPartition2.keeps.Holds ListOffsetPartition2.layout :=
  KeptMsg.holds ListOffsetPartition2.lawful ListOffsetPartition2.sameK (stop := fun v t => ListOffsetPartition2.ends v t 3) (c := fun v t => ListOffsetPartition2.cutAt v t 0) (fun _ _ _ => rfl) ListOffsetPartition2.cutsK (c0 := ListOffsetPartition2.first 0) rfl ListOffsetPartition2.partsK ListOffsetPartition2.part_of ListOffsetPartition2.filled (by decide) (by decide)

/-- message/messages.gen.go:1226-1246 `ListOffsetTopic2.Decode`, with the receiver kept -/
def ListOffsetTopic2.decodeK (version : Int16) : KDec ListOffsetTopic2 :=
    KDec.field Dec.string [] (fun t x => { t with Name := x }) ;|>
    KDec.fieldStructs (ListOffsetPartition2.decodeK version {}) {} (fun t x => { t with Partitions := x })

/-- Where the fields of `ListOffsetTopic2` end. -/
def ListOffsetTopic2.ends (version : Int16) (t : ListOffsetTopic2) : Nat → Nat :=
  Cut.ends 0 [Wire.string t.Name,
    Wire.array (ListOffsetPartition2.wire version) t.Partitions]

/-- What is left of `t` if only its first `n` bytes are there. -/
def ListOffsetTopic2.cut (version : Int16) (n : Nat) (t : ListOffsetTopic2) : ListOffsetTopic2 :=
  { Name := Cut.field n (t.ends version 0) t.Name [],
    Partitions := Cut.array n (t.ends version 0) (ListOffsetPartition2.wire version) (fun x => x.seen version {}) {} t.Partitions }

/-- The same after the first `k` statements of `Decode`. -/
def ListOffsetTopic2.cutAt (version : Int16) (t : ListOffsetTopic2) (k n : Nat) : ListOffsetTopic2 :=
  { Name := upto k 0 (Cut.field n (t.ends version 0) t.Name []) [],
    Partitions := upto k 1 (Cut.array n (t.ends version 0) (ListOffsetPartition2.wire version) (fun x => x.seen version {}) {} t.Partitions) none }

/-- The first `k` fields of `y`, and zeros. -/
def ListOffsetTopic2.first (k : Nat) (y : ListOffsetTopic2) : ListOffsetTopic2 :=
  { Name := upto k 0 y.Name [],
    Partitions := upto k 1 y.Partitions none }

/-- `r` is a beginning of `y`, and zeros. -/
def ListOffsetTopic2.Part (r y : ListOffsetTopic2) : Prop :=
  (∃ k, k < 2 ∧ r = y.first k) ∨
    Cut.begun {} (fun t => t.Partitions) (fun t x => { t with Partitions := x }) (ListOffsetTopic2.first 1) r y

/-- `ListOffsetTopic2` with its receiver kept. -/
def ListOffsetTopic2.keeps : KeptMsg ListOffsetTopic2.type := { decode := ListOffsetTopic2.decodeK, cut := ListOffsetTopic2.cut, Part := ListOffsetTopic2.Part }

theorem ListOffsetTopic2.sameK (version : Int16) : KStep (ListOffsetTopic2.decodeK version) (ListOffsetTopic2.decode version) :=
  (KStep.field)
    |>.andThen (KStep.structs (fun _ => rfl) (ListOffsetPartition2.sameK version {}))
theorem ListOffsetTopic2.cutsK (version : Int16) (t : ListOffsetTopic2) (h : t.Fits version) :
    Cuts (ListOffsetTopic2.decodeK version) 0 (ListOffsetTopic2.wire version t) (ListOffsetTopic2.ends version t 1) (ListOffsetTopic2.cutAt version t 0) (ListOffsetTopic2.cutAt version t 2) :=
  (.field (reads_string h.Name) (fun _ => rfl) (fun _ => rfl) : Cuts _ 0 _ (ListOffsetTopic2.ends version t 0) (ListOffsetTopic2.cutAt version t 0) (ListOffsetTopic2.cutAt version t 1))
    |>.andThen (.structs (ListOffsetPartition2.sameK version {}) (fun x hx => ListOffsetPartition2.reads version x hx {}) h.Partitions (fun _ => rfl) (fun _ => rfl) : Cuts _ (ListOffsetTopic2.ends version t 0) _ (ListOffsetTopic2.ends version t 1) (ListOffsetTopic2.cutAt version t 1) (ListOffsetTopic2.cutAt version t 2))
theorem ListOffsetTopic2.partsK (version : Int16) : Parts (ListOffsetTopic2.decodeK version) (ListOffsetTopic2.first 0) (ListOffsetTopic2.first 2) (fun r y => ((r = ListOffsetTopic2.first 0 y) ∨ (r = ListOffsetTopic2.first 1 y ∨ Cut.begun {} (fun t => t.Partitions) (fun t x => { t with Partitions := x }) (ListOffsetTopic2.first 1) r y))) :=
  (.field Longer.string (fun _ => rfl) (fun _ _ => rfl) (fun _ _ => rfl) (fun _ => rfl) : Parts (KDec.field Dec.string [] (fun t x => { t with Name := x })) (ListOffsetTopic2.first 0) (ListOffsetTopic2.first 1) (fun r y => r = ListOffsetTopic2.first 0 y))
    |>.andThen (.structs (get := fun (t : ListOffsetTopic2) => t.Partitions) ((ListOffsetPartition2.partsK version).longer {}) (fun _ => rfl) (fun _ => rfl) (fun _ _ => rfl) (fun _ _ => rfl) (fun _ _ => rfl) (fun _ => rfl) (fun _ => rfl) : Parts (KDec.fieldStructs (ListOffsetPartition2.decodeK version {}) {} (fun t x => { t with Partitions := x })) (ListOffsetTopic2.first 1) (ListOffsetTopic2.first 2) (fun r y => r = ListOffsetTopic2.first 1 y ∨ Cut.begun {} (fun t => t.Partitions) (fun t x => { t with Partitions := x }) (ListOffsetTopic2.first 1) r y))
theorem ListOffsetTopic2.filled (version : Int16) : FilledStep 6 42949672984 (ListOffsetTopic2.decode version) :=
  ((FilledStep.field .string)
    |>.andThen (FilledStep.structs (ListOffsetPartition2.filled version {}))).mono (by decide) (by decide)
theorem ListOffsetTopic2.part_of (r y : ListOffsetTopic2) (h : ((r = ListOffsetTopic2.first 0 y) ∨ (r = ListOffsetTopic2.first 1 y ∨ Cut.begun {} (fun t => t.Partitions) (fun t x => { t with Partitions := x }) (ListOffsetTopic2.first 1) r y))) : ListOffsetTopic2.Part r y :=
  match h with
    | (.inl h) => .inl ⟨0, by decide, h⟩
    | (.inr (.inl h)) => .inl ⟨1, by decide, h⟩
    | (.inr (.inr h)) => (.inr h)
theorem ListOffsetTopic2.keeps_holds : ListOffsetTopic2.keeps.Holds ListOffsetTopic2.layout :=
  KeptMsg.holds ListOffsetTopic2.lawful ListOffsetTopic2.sameK (stop := fun v t => ListOffsetTopic2.ends v t 1) (c := fun v t => ListOffsetTopic2.cutAt v t 0) (fun _ _ _ => rfl) ListOffsetTopic2.cutsK (c0 := ListOffsetTopic2.first 0) rfl ListOffsetTopic2.partsK ListOffsetTopic2.part_of ListOffsetTopic2.filled (by decide) (by decide)

/-- message/messages.gen.go:1170-1196 `ListOffsetRequest.Decode`, with the receiver kept -/
def ListOffsetRequest.decodeK (version : Int16) : KDec ListOffsetRequest :=
    KDec.field Dec.int32 0 (fun t x => { t with ReplicaId := x }) ;|>
    KDec.onlyIf (version ≥ 2) (KDec.field Dec.int8 0 (fun t x => { t with IsolationLevel := x })) ;|>
    KDec.fieldStructs (ListOffsetTopic2.decodeK version {}) {} (fun t x => { t with Topics := x })

/-- Where the fields of `ListOffsetRequest` end. -/
def ListOffsetRequest.ends (version : Int16) (t : ListOffsetRequest) : Nat → Nat :=
  Cut.ends 0 [Wire.int32 t.ReplicaId,
    Wire.when (version ≥ 2) (Wire.int8 t.IsolationLevel),
    Wire.array (ListOffsetTopic2.wire version) t.Topics]

/-- What is left of `t` if only its first `n` bytes are there. -/
def ListOffsetRequest.cut (version : Int16) (n : Nat) (t : ListOffsetRequest) : ListOffsetRequest :=
  { ReplicaId := Cut.field n (t.ends version 0) t.ReplicaId 0,
    IsolationLevel := Cut.gate (version ≥ 2) (Cut.field n (t.ends version 1) t.IsolationLevel 0) 0,
    Topics := Cut.array n (t.ends version 1) (ListOffsetTopic2.wire version) (fun x => x.seen version {}) {} t.Topics }

/-- The same after the first `k` statements of `Decode`. -/
def ListOffsetRequest.cutAt (version : Int16) (t : ListOffsetRequest) (k n : Nat) : ListOffsetRequest :=
  { ReplicaId := upto k 0 (Cut.field n (t.ends version 0) t.ReplicaId 0) 0,
    IsolationLevel := upto k 1 (Cut.gate (version ≥ 2) (Cut.field n (t.ends version 1) t.IsolationLevel 0) 0) 0,
    Topics := upto k 2 (Cut.array n (t.ends version 1) (ListOffsetTopic2.wire version) (fun x => x.seen version {}) {} t.Topics) none }

/-- The first `k` fields of `y`, and zeros. -/
def ListOffsetRequest.first (k : Nat) (y : ListOffsetRequest) : ListOffsetRequest :=
  { ReplicaId := upto k 0 y.ReplicaId 0,
    IsolationLevel := upto k 1 y.IsolationLevel 0,
    Topics := upto k 2 y.Topics none }

/-- `r` is a beginning of `y`, and zeros. -/
def ListOffsetRequest.Part (r y : ListOffsetRequest) : Prop :=
  (∃ k, k < 3 ∧ r = y.first k) ∨
    Cut.begun {} (fun t => t.Topics) (fun t x => { t with Topics := x }) (ListOffsetRequest.first 2) r y

/-- `ListOffsetRequest` with its receiver kept. -/
def ListOffsetRequest.keeps : KeptMsg ListOffsetRequest.type := { decode := ListOffsetRequest.decodeK, cut := ListOffsetRequest.cut, Part := ListOffsetRequest.Part }

theorem ListOffsetRequest.sameK (version : Int16) : KStep (ListOffsetRequest.decodeK version) (ListOffsetRequest.decode version) :=
  (KStep.field)
    |>.andThen (KStep.onlyIf (KStep.field))
    |>.andThen (KStep.structs (fun _ => rfl) (ListOffsetTopic2.sameK version {}))
theorem ListOffsetRequest.cutsK (version : Int16) (t : ListOffsetRequest) (h : t.Fits version) :
    Cuts (ListOffsetRequest.decodeK version) 0 (ListOffsetRequest.wire version t) (ListOffsetRequest.ends version t 2) (ListOffsetRequest.cutAt version t 0) (ListOffsetRequest.cutAt version t 3) :=
  (.field (reads_int32 t.ReplicaId) (fun _ => rfl) (fun _ => rfl) : Cuts _ 0 _ (ListOffsetRequest.ends version t 0) (ListOffsetRequest.cutAt version t 0) (ListOffsetRequest.cutAt version t 1))
    |>.andThen (.optField (fun _ => reads_int8 t.IsolationLevel) (fun _ => rfl) (fun _ => rfl) : Cuts _ (ListOffsetRequest.ends version t 0) _ (ListOffsetRequest.ends version t 1) (ListOffsetRequest.cutAt version t 1) (ListOffsetRequest.cutAt version t 2))
    |>.andThen (.structs (ListOffsetTopic2.sameK version {}) (fun x hx => ListOffsetTopic2.reads version x hx {}) h.Topics (fun _ => rfl) (fun _ => rfl) : Cuts _ (ListOffsetRequest.ends version t 1) _ (ListOffsetRequest.ends version t 2) (ListOffsetRequest.cutAt version t 2) (ListOffsetRequest.cutAt version t 3))
theorem ListOffsetRequest.partsK (version : Int16) : Parts (ListOffsetRequest.decodeK version) (ListOffsetRequest.first 0) (ListOffsetRequest.first 3) (fun r y => (((r = ListOffsetRequest.first 0 y) ∨ (r = ListOffsetRequest.first 1 y)) ∨ (r = ListOffsetRequest.first 2 y ∨ Cut.begun {} (fun t => t.Topics) (fun t x => { t with Topics := x }) (ListOffsetRequest.first 2) r y))) :=
  (.field Longer.int32 (fun _ => rfl) (fun _ _ => rfl) (fun _ _ => rfl) (fun _ => rfl) : Parts (KDec.field Dec.int32 0 (fun t x => { t with ReplicaId := x })) (ListOffsetRequest.first 0) (ListOffsetRequest.first 1) (fun r y => r = ListOffsetRequest.first 0 y))
    |>.andThen (.onlyIf (.field Longer.int8 (fun _ => rfl) (fun _ _ => rfl) (fun _ _ => rfl) (fun _ => rfl)) (fun _ => rfl) : Parts (KDec.onlyIf (version ≥ 2) (KDec.field Dec.int8 0 (fun t x => { t with IsolationLevel := x }))) (ListOffsetRequest.first 1) (ListOffsetRequest.first 2) (fun r y => r = ListOffsetRequest.first 1 y))
    |>.andThen (.structs (get := fun (t : ListOffsetRequest) => t.Topics) ((ListOffsetTopic2.partsK version).longer {}) (fun _ => rfl) (fun _ => rfl) (fun _ _ => rfl) (fun _ _ => rfl) (fun _ _ => rfl) (fun _ => rfl) (fun _ => rfl) : Parts (KDec.fieldStructs (ListOffsetTopic2.decodeK version {}) {} (fun t x => { t with Topics := x })) (ListOffsetRequest.first 2) (ListOffsetRequest.first 3) (fun r y => r = ListOffsetRequest.first 2 y ∨ Cut.begun {} (fun t => t.Topics) (fun t x => { t with Topics := x }) (ListOffsetRequest.first 2) r y))
theorem ListOffsetRequest.filled (version : Int16) : FilledStep 9 55834574876 (ListOffsetRequest.decode version) :=
  ((FilledStep.field .int32)
    |>.andThen (FilledStep.onlyIf (FilledStep.field .int8))
    |>.andThen (FilledStep.structs (ListOffsetTopic2.filled version {}))).mono (by decide) (by decide)
theorem ListOffsetRequest.part_of (r y : ListOffsetRequest) (h : (((r = ListOffsetRequest.first 0 y) ∨ (r = ListOffsetRequest.first 1 y)) ∨ (r = ListOffsetRequest.first 2 y ∨ Cut.begun {} (fun t => t.Topics) (fun t x => { t with Topics := x }) (ListOffsetRequest.first 2) r y))) : ListOffsetRequest.Part r y :=
  match h with
    | (.inl (.inl h)) => .inl ⟨0, by decide, h⟩
    | (.inl (.inr h)) => .inl ⟨1, by decide, h⟩
    | (.inr (.inl h)) => .inl ⟨2, by decide, h⟩
    | (.inr (.inr h)) => (.inr h)
theorem ListOffsetRequest.keeps_holds : ListOffsetRequest.keeps.Holds ListOffsetRequest.layout :=
  KeptMsg.holds ListOffsetRequest.lawful ListOffsetRequest.sameK (stop := fun v t => ListOffsetRequest.ends v t 2) (c := fun v t => ListOffsetRequest.cutAt v t 0) (fun _ _ _ => rfl) ListOffsetRequest.cutsK (c0 := ListOffsetRequest.first 0) rfl ListOffsetRequest.partsK ListOffsetRequest.part_of ListOffsetRequest.filled (by decide) (by decide)

/-- message/messages.gen.go:1462-1497 `ListOffsetPartitionResponse2.Decode`, with the receiver kept -/
def ListOffsetPartitionResponse2.decodeK (version : Int16) : KDec ListOffsetPartitionResponse2 :=
    KDec.field Dec.int32 0 (fun t x => { t with PartitionIndex := x }) ;|>
    KDec.field Dec.int16 0 (fun t x => { t with ErrorCode := x }) ;|>
    KDec.onlyIf (version ≥ 0 ∧ version ≤ 0) (KDec.field Dec.int64Array none (fun t x => { t with OldStyleOffsets := x })) ;|>
    KDec.onlyIf (version ≥ 1) (KDec.field Dec.int64 0 (fun t x => { t with Timestamp := x })) ;|>
    KDec.onlyIf (version ≥ 1) (KDec.field Dec.int64 0 (fun t x => { t with Offset := x })) ;|>
    KDec.onlyIf (version ≥ 4) (KDec.field Dec.int32 0 (fun t x => { t with LeaderEpoch := x }))

/-- Where the fields of `ListOffsetPartitionResponse2` end. -/
def ListOffsetPartitionResponse2.ends (version : Int16) (t : ListOffsetPartitionResponse2) : Nat → Nat :=
  Cut.ends 0 [Wire.int32 t.PartitionIndex,
    Wire.int16 t.ErrorCode,
    Wire.when (version ≥ 0 ∧ version ≤ 0) (Wire.int64Array t.OldStyleOffsets),
    Wire.when (version ≥ 1) (Wire.int64 t.Timestamp),
    Wire.when (version ≥ 1) (Wire.int64 t.Offset),
    Wire.when (version ≥ 4) (Wire.int32 t.LeaderEpoch)]

/-- What is left of `t` if only its first `n` bytes are there. -/
def ListOffsetPartitionResponse2.cut (version : Int16) (n : Nat) (t : ListOffsetPartitionResponse2) : ListOffsetPartitionResponse2 :=
  { PartitionIndex := Cut.field n (t.ends version 0) t.PartitionIndex 0,
    ErrorCode := Cut.field n (t.ends version 1) t.ErrorCode 0,
    OldStyleOffsets := Cut.gate (version ≥ 0 ∧ version ≤ 0) (Cut.field n (t.ends version 2) t.OldStyleOffsets none) none,
    Timestamp := Cut.gate (version ≥ 1) (Cut.field n (t.ends version 3) t.Timestamp 0) 0,
    Offset := Cut.gate (version ≥ 1) (Cut.field n (t.ends version 4) t.Offset 0) 0,
    LeaderEpoch := Cut.gate (version ≥ 4) (Cut.field n (t.ends version 5) t.LeaderEpoch 0) 0 }

/-- The same after the first `k` statements of `Decode`. -/
def ListOffsetPartitionResponse2.cutAt (version : Int16) (t : ListOffsetPartitionResponse2) (k n : Nat) : ListOffsetPartitionResponse2 :=
  { PartitionIndex := upto k 0 (Cut.field n (t.ends version 0) t.PartitionIndex 0) 0,
    ErrorCode := upto k 1 (Cut.field n (t.ends version 1) t.ErrorCode 0) 0,
    OldStyleOffsets := upto k 2 (Cut.gate (version ≥ 0 ∧ version ≤ 0) (Cut.field n (t.ends version 2) t.OldStyleOffsets none) none) none,
    Timestamp := upto k 3 (Cut.gate (version ≥ 1) (Cut.field n (t.ends version 3) t.Timestamp 0) 0) 0,
    Offset := upto k 4 (Cut.gate (version ≥ 1) (Cut.field n (t.ends version 4) t.Offset 0) 0) 0,
    LeaderEpoch := upto k 5 (Cut.gate (version ≥ 4) (Cut.field n (t.ends version 5) t.LeaderEpoch 0) 0) 0 }

/-- The first `k` fields of `y`, and zeros. -/
def ListOffsetPartitionResponse2.first (k : Nat) (y : ListOffsetPartitionResponse2) : ListOffsetPartitionResponse2 :=
  { PartitionIndex := upto k 0 y.PartitionIndex 0,
    ErrorCode := upto k 1 y.ErrorCode 0,
    OldStyleOffsets := upto k 2 y.OldStyleOffsets none,
    Timestamp := upto k 3 y.Timestamp 0,
    Offset := upto k 4 y.Offset 0,
    LeaderEpoch := upto k 5 y.LeaderEpoch 0 }

/-- `r` is a beginning of `y`, and zeros. -/
def ListOffsetPartitionResponse2.Part (r y : ListOffsetPartitionResponse2) : Prop :=
  (∃ k, k < 6 ∧ r = y.first k)

/-- `ListOffsetPartitionResponse2` with its receiver kept. -/
def ListOffsetPartitionResponse2.keeps : KeptMsg ListOffsetPartitionResponse2.type := { decode := ListOffsetPartitionResponse2.decodeK, cut := ListOffsetPartitionResponse2.cut, Part := ListOffsetPartitionResponse2.Part }

theorem ListOffsetPartitionResponse2.sameK (version : Int16) : KStep (ListOffsetPartitionResponse2.decodeK version) (ListOffsetPartitionResponse2.decode version) :=
  (KStep.field)
    |>.andThen (KStep.field)
    |>.andThen (KStep.onlyIf (KStep.field))
    |>.andThen (KStep.onlyIf (KStep.field))
    |>.andThen (KStep.onlyIf (KStep.field))
    |>.andThen (KStep.onlyIf (KStep.field))
theorem ListOffsetPartitionResponse2.cutsK (version : Int16) (t : ListOffsetPartitionResponse2) (h : t.Fits version) :
    Cuts (ListOffsetPartitionResponse2.decodeK version) 0 (ListOffsetPartitionResponse2.wire version t) (ListOffsetPartitionResponse2.ends version t 5) (ListOffsetPartitionResponse2.cutAt version t 0) (ListOffsetPartitionResponse2.cutAt version t 6) :=
  (.field (reads_int32 t.PartitionIndex) (fun _ => rfl) (fun _ => rfl) : Cuts _ 0 _ (ListOffsetPartitionResponse2.ends version t 0) (ListOffsetPartitionResponse2.cutAt version t 0) (ListOffsetPartitionResponse2.cutAt version t 1))
    |>.andThen (.field (reads_int16 t.ErrorCode) (fun _ => rfl) (fun _ => rfl) : Cuts _ (ListOffsetPartitionResponse2.ends version t 0) _ (ListOffsetPartitionResponse2.ends version t 1) (ListOffsetPartitionResponse2.cutAt version t 1) (ListOffsetPartitionResponse2.cutAt version t 2))
    |>.andThen (.optField (fun hc => reads_int64Array (h.OldStyleOffsets hc)) (fun _ => rfl) (fun _ => rfl) : Cuts _ (ListOffsetPartitionResponse2.ends version t 1) _ (ListOffsetPartitionResponse2.ends version t 2) (ListOffsetPartitionResponse2.cutAt version t 2) (ListOffsetPartitionResponse2.cutAt version t 3))
    |>.andThen (.optField (fun _ => reads_int64 t.Timestamp) (fun _ => rfl) (fun _ => rfl) : Cuts _ (ListOffsetPartitionResponse2.ends version t 2) _ (ListOffsetPartitionResponse2.ends version t 3) (ListOffsetPartitionResponse2.cutAt version t 3) (ListOffsetPartitionResponse2.cutAt version t 4))
    |>.andThen (.optField (fun _ => reads_int64 t.Offset) (fun _ => rfl) (fun _ => rfl) : Cuts _ (ListOffsetPartitionResponse2.ends version t 3) _ (ListOffsetPartitionResponse2.ends version t 4) (ListOffsetPartitionResponse2.cutAt version t 4) (ListOffsetPartitionResponse2.cutAt version t 5))
    |>.andThen (.optField (fun _ => reads_int32 t.LeaderEpoch) (fun _ => rfl) (fun _ => rfl) : Cuts _ (ListOffsetPartitionResponse2.ends version t 4) _ (ListOffsetPartitionResponse2.ends version t 5) (ListOffsetPartitionResponse2.cutAt version t 5) (ListOffsetPartitionResponse2.cutAt version t 6))
theorem ListOffsetPartitionResponse2.partsK (version : Int16) : Parts (ListOffsetPartitionResponse2.decodeK version) (ListOffsetPartitionResponse2.first 0) (ListOffsetPartitionResponse2.first 6) (fun r y => ((((((r = ListOffsetPartitionResponse2.first 0 y) ∨ (r = ListOffsetPartitionResponse2.first 1 y)) ∨ (r = ListOffsetPartitionResponse2.first 2 y)) ∨ (r = ListOffsetPartitionResponse2.first 3 y)) ∨ (r = ListOffsetPartitionResponse2.first 4 y)) ∨ (r = ListOffsetPartitionResponse2.first 5 y))) :=
  (.field Longer.int32 (fun _ => rfl) (fun _ _ => rfl) (fun _ _ => rfl) (fun _ => rfl) : Parts (KDec.field Dec.int32 0 (fun t x => { t with PartitionIndex := x })) (ListOffsetPartitionResponse2.first 0) (ListOffsetPartitionResponse2.first 1) (fun r y => r = ListOffsetPartitionResponse2.first 0 y))
    |>.andThen (.field Longer.int16 (fun _ => rfl) (fun _ _ => rfl) (fun _ _ => rfl) (fun _ => rfl) : Parts (KDec.field Dec.int16 0 (fun t x => { t with ErrorCode := x })) (ListOffsetPartitionResponse2.first 1) (ListOffsetPartitionResponse2.first 2) (fun r y => r = ListOffsetPartitionResponse2.first 1 y))
    |>.andThen (.onlyIf (.field Longer.int64Array (fun _ => rfl) (fun _ _ => rfl) (fun _ _ => rfl) (fun _ => rfl)) (fun _ => rfl) : Parts (KDec.onlyIf (version ≥ 0 ∧ version ≤ 0) (KDec.field Dec.int64Array none (fun t x => { t with OldStyleOffsets := x }))) (ListOffsetPartitionResponse2.first 2) (ListOffsetPartitionResponse2.first 3) (fun r y => r = ListOffsetPartitionResponse2.first 2 y))
    |>.andThen (.onlyIf (.field Longer.int64 (fun _ => rfl) (fun _ _ => rfl) (fun _ _ => rfl) (fun _ => rfl)) (fun _ => rfl) : Parts (KDec.onlyIf (version ≥ 1) (KDec.field Dec.int64 0 (fun t x => { t with Timestamp := x }))) (ListOffsetPartitionResponse2.first 3) (ListOffsetPartitionResponse2.first 4) (fun r y => r = ListOffsetPartitionResponse2.first 3 y))
    |>.andThen (.onlyIf (.field Longer.int64 (fun _ => rfl) (fun _ _ => rfl) (fun _ _ => rfl) (fun _ => rfl)) (fun _ => rfl) : Parts (KDec.onlyIf (version ≥ 1) (KDec.field Dec.int64 0 (fun t x => { t with Offset := x }))) (ListOffsetPartitionResponse2.first 4) (ListOffsetPartitionResponse2.first 5) (fun r y => r = ListOffsetPartitionResponse2.first 4 y))
    |>.andThen (.onlyIf (.field Longer.int32 (fun _ => rfl) (fun _ _ => rfl) (fun _ _ => rfl) (fun _ => rfl)) (fun _ => rfl) : Parts (KDec.onlyIf (version ≥ 4) (KDec.field Dec.int32 0 (fun t x => { t with LeaderEpoch := x }))) (ListOffsetPartitionResponse2.first 5) (ListOffsetPartitionResponse2.first 6) (fun r y => r = ListOffsetPartitionResponse2.first 5 y))
theorem ListOffsetPartitionResponse2.filled (version : Int16) : FilledStep 30 17179869216 (ListOffsetPartitionResponse2.decode version) :=
  ((FilledStep.field .int32)
    |>.andThen (FilledStep.field .int16)
    |>.andThen (FilledStep.onlyIf (FilledStep.field .int64Array))
    |>.andThen (FilledStep.onlyIf (FilledStep.field .int64))
    |>.andThen (FilledStep.onlyIf (FilledStep.field .int64))
    |>.andThen (FilledStep.onlyIf (FilledStep.field .int32))).mono (by decide) (by decide)
theorem ListOffsetPartitionResponse2.part_of (r y : ListOffsetPartitionResponse2) (h : ((((((r = ListOffsetPartitionResponse2.first 0 y) ∨ (r = ListOffsetPartitionResponse2.first 1 y)) ∨ (r = ListOffsetPartitionResponse2.first 2 y)) ∨ (r = ListOffsetPartitionResponse2.first 3 y)) ∨ (r = ListOffsetPartitionResponse2.first 4 y)) ∨ (r = ListOffsetPartitionResponse2.first 5 y))) : ListOffsetPartitionResponse2.Part r y :=
  match h with
    | (.inl (.inl (.inl (.inl (.inl h))))) => ⟨0, by decide, h⟩
    | (.inl (.inl (.inl (.inl (.inr h))))) => ⟨1, by decide, h⟩
    | (.inl (.inl (.inl (.inr h)))) => ⟨2, by decide, h⟩
    | (.inl (.inl (.inr h))) => ⟨3, by decide, h⟩
    | (.inl (.inr h)) => ⟨4, by decide, h⟩
    | (.inr h) => ⟨5, by decide, h⟩
theorem ListOffsetPartitionResponse2.keeps_holds : ListOffsetPartitionResponse2.keeps.Holds ListOffsetPartitionResponse2.layout :=
  KeptMsg.holds ListOffsetPartitionResponse2.lawful ListOffsetPartitionResponse2.sameK (stop := fun v t => ListOffsetPartitionResponse2.ends v t 5) (c := fun v t => ListOffsetPartitionResponse2.cutAt v t 0) (fun _ _ _ => rfl) ListOffsetPartitionResponse2.cutsK (c0 := ListOffsetPartitionResponse2.first 0) rfl ListOffsetPartitionResponse2.partsK ListOffsetPartitionResponse2.part_of ListOffsetPartitionResponse2.filled (by decide) (by decide)

/-- message/messages.gen.go:1392-1412 `ListOffsetTopicResponse2.Decode`, with the receiver kept -/
def ListOffsetTopicResponse2.decodeK (version : Int16) : KDec ListOffsetTopicResponse2 :=
    KDec.field Dec.string [] (fun t x => { t with Name := x }) ;|>
    KDec.fieldStructs (ListOffsetPartitionResponse2.decodeK version {}) {} (fun t x => { t with Partitions := x })

/-- Where the fields of `ListOffsetTopicResponse2` end. -/
def ListOffsetTopicResponse2.ends (version : Int16) (t : ListOffsetTopicResponse2) : Nat → Nat :=
  Cut.ends 0 [Wire.string t.Name,
    Wire.array (ListOffsetPartitionResponse2.wire version) t.Partitions]

/-- What is left of `t` if only its first `n` bytes are there. -/
def ListOffsetTopicResponse2.cut (version : Int16) (n : Nat) (t : ListOffsetTopicResponse2) : ListOffsetTopicResponse2 :=
  { Name := Cut.field n (t.ends version 0) t.Name [],
    Partitions := Cut.array n (t.ends version 0) (ListOffsetPartitionResponse2.wire version) (fun x => x.seen version {}) {} t.Partitions }

/-- The same after the first `k` statements of `Decode`. -/
def ListOffsetTopicResponse2.cutAt (version : Int16) (t : ListOffsetTopicResponse2) (k n : Nat) : ListOffsetTopicResponse2 :=
  { Name := upto k 0 (Cut.field n (t.ends version 0) t.Name []) [],
    Partitions := upto k 1 (Cut.array n (t.ends version 0) (ListOffsetPartitionResponse2.wire version) (fun x => x.seen version {}) {} t.Partitions) none }

/-- The first `k` fields of `y`, and zeros. -/
def ListOffsetTopicResponse2.first (k : Nat) (y : ListOffsetTopicResponse2) : ListOffsetTopicResponse2 :=
  { Name := upto k 0 y.Name [],
    Partitions := upto k 1 y.Partitions none }

/-- `r` is a beginning of `y`, and zeros. -/
def ListOffsetTopicResponse2.Part (r y : ListOffsetTopicResponse2) : Prop :=
  (∃ k, k < 2 ∧ r = y.first k) ∨
    Cut.begun {} (fun t => t.Partitions) (fun t x => { t with Partitions := x }) (ListOffsetTopicResponse2.first 1) r y

/-- `ListOffsetTopicResponse2` with its receiver kept. -/
def ListOffsetTopicResponse2.keeps : KeptMsg ListOffsetTopicResponse2.type := { decode := ListOffsetTopicResponse2.decodeK, cut := ListOffsetTopicResponse2.cut, Part := ListOffsetTopicResponse2.Part }

theorem ListOffsetTopicResponse2.sameK (version : Int16) : KStep (ListOffsetTopicResponse2.decodeK version) (ListOffsetTopicResponse2.decode version) :=
  (KStep.field)
    |>.andThen (KStep.structs (fun _ => rfl) (ListOffsetPartitionResponse2.sameK version {}))
theorem ListOffsetTopicResponse2.cutsK (version : Int16) (t : ListOffsetTopicResponse2) (h : t.Fits version) :
    Cuts (ListOffsetTopicResponse2.decodeK version) 0 (ListOffsetTopicResponse2.wire version t) (ListOffsetTopicResponse2.ends version t 1) (ListOffsetTopicResponse2.cutAt version t 0) (ListOffsetTopicResponse2.cutAt version t 2) :=
  (.field (reads_string h.Name) (fun _ => rfl) (fun _ => rfl) : Cuts _ 0 _ (ListOffsetTopicResponse2.ends version t 0) (ListOffsetTopicResponse2.cutAt version t 0) (ListOffsetTopicResponse2.cutAt version t 1))
    |>.andThen (.structs (ListOffsetPartitionResponse2.sameK version {}) (fun x hx => ListOffsetPartitionResponse2.reads version x hx {}) h.Partitions (fun _ => rfl) (fun _ => rfl) : Cuts _ (ListOffsetTopicResponse2.ends version t 0) _ (ListOffsetTopicResponse2.ends version t 1) (ListOffsetTopicResponse2.cutAt version t 1) (ListOffsetTopicResponse2.cutAt version t 2))
theorem ListOffsetTopicResponse2.partsK (version : Int16) : Parts (ListOffsetTopicResponse2.decodeK version) (ListOffsetTopicResponse2.first 0) (ListOffsetTopicResponse2.first 2) (fun r y => ((r = ListOffsetTopicResponse2.first 0 y) ∨ (r = ListOffsetTopicResponse2.first 1 y ∨ Cut.begun {} (fun t => t.Partitions) (fun t x => { t with Partitions := x }) (ListOffsetTopicResponse2.first 1) r y))) :=
  (.field Longer.string (fun _ => rfl) (fun _ _ => rfl) (fun _ _ => rfl) (fun _ => rfl) : Parts (KDec.field Dec.string [] (fun t x => { t with Name := x })) (ListOffsetTopicResponse2.first 0) (ListOffsetTopicResponse2.first 1) (fun r y => r = ListOffsetTopicResponse2.first 0 y))
    |>.andThen (.structs (get := fun (t : ListOffsetTopicResponse2) => t.Partitions) ((ListOffsetPartitionResponse2.partsK version).longer {}) (fun _ => rfl) (fun _ => rfl) (fun _ _ => rfl) (fun _ _ => rfl) (fun _ _ => rfl) (fun _ => rfl) (fun _ => rfl) : Parts (KDec.fieldStructs (ListOffsetPartitionResponse2.decodeK version {}) {} (fun t x => { t with Partitions := x })) (ListOffsetTopicResponse2.first 1) (ListOffsetTopicResponse2.first 2) (fun r y => r = ListOffsetTopicResponse2.first 1 y ∨ Cut.begun {} (fun t => t.Partitions) (fun t x => { t with Partitions := x }) (ListOffsetTopicResponse2.first 1) r y))
theorem ListOffsetTopicResponse2.filled (version : Int16) : FilledStep 6 81604378660 (ListOffsetTopicResponse2.decode version) :=
  ((FilledStep.field .string)
    |>.andThen (FilledStep.structs (ListOffsetPartitionResponse2.filled version {}))).mono (by decide) (by decide)
theorem ListOffsetTopicResponse2.part_of (r y : ListOffsetTopicResponse2) (h : ((r = ListOffsetTopicResponse2.first 0 y) ∨ (r = ListOffsetTopicResponse2.first 1 y ∨ Cut.begun {} (fun t => t.Partitions) (fun t x => { t with Partitions := x }) (ListOffsetTopicResponse2.first 1) r y))) : ListOffsetTopicResponse2.Part r y :=
  match h with
    | (.inl h) => .inl ⟨0, by decide, h⟩
    | (.inr (.inl h)) => .inl ⟨1, by decide, h⟩
    | (.inr (.inr h)) => (.inr h)
theorem ListOffsetTopicResponse2.keeps_holds : ListOffsetTopicResponse2.keeps.Holds ListOffsetTopicResponse2.layout :=
  KeptMsg.holds ListOffsetTopicResponse2.lawful ListOffsetTopicResponse2.sameK (stop := fun v t => ListOffsetTopicResponse2.ends v t 1) (c := fun v t => ListOffsetTopicResponse2.cutAt v t 0) (fun _ _ _ => rfl) ListOffsetTopicResponse2.cutsK (c0 := ListOffsetTopicResponse2.first 0) rfl ListOffsetTopicResponse2.partsK ListOffsetTopicResponse2.part_of ListOffsetTopicResponse2.filled (by decide) (by decide)

/-- message/messages.gen.go:1340-1362 `ListOffsetResponse.Decode`, with the receiver kept -/
def ListOffsetResponse.decodeK (version : Int16) : KDec ListOffsetResponse :=
    KDec.onlyIf (version ≥ 2) (KDec.field Dec.int32 0 (fun t x => { t with ThrottleTimeMs := x })) ;|>
    KDec.fieldStructs (ListOffsetTopicResponse2.decodeK version {}) {} (fun t x => { t with Topics := x })

/-- Where the fields of `ListOffsetResponse` end. -/
def ListOffsetResponse.ends (version : Int16) (t : ListOffsetResponse) : Nat → Nat :=
  Cut.ends 0 [Wire.when (version ≥ 2) (Wire.int32 t.ThrottleTimeMs),
    Wire.array (ListOffsetTopicResponse2.wire version) t.Topics]

/-- What is left of `t` if only its first `n` bytes are there. -/
def ListOffsetResponse.cut (version : Int16) (n : Nat) (t : ListOffsetResponse) : ListOffsetResponse :=
  { ThrottleTimeMs := Cut.gate (version ≥ 2) (Cut.field n (t.ends version 0) t.ThrottleTimeMs 0) 0,
    Topics := Cut.array n (t.ends version 0) (ListOffsetTopicResponse2.wire version) (fun x => x.seen version {}) {} t.Topics }

/-- The same after the first `k` statements of `Decode`. -/
def ListOffsetResponse.cutAt (version : Int16) (t : ListOffsetResponse) (k n : Nat) : ListOffsetResponse :=
  { ThrottleTimeMs := upto k 0 (Cut.gate (version ≥ 2) (Cut.field n (t.ends version 0) t.ThrottleTimeMs 0) 0) 0,
    Topics := upto k 1 (Cut.array n (t.ends version 0) (ListOffsetTopicResponse2.wire version) (fun x => x.seen version {}) {} t.Topics) none }

/-- The first `k` fields of `y`, and zeros. -/
def ListOffsetResponse.first (k : Nat) (y : ListOffsetResponse) : ListOffsetResponse :=
  { ThrottleTimeMs := upto k 0 y.ThrottleTimeMs 0,
    Topics := upto k 1 y.Topics none }

/-- `r` is a beginning of `y`, and zeros. -/
def ListOffsetResponse.Part (r y : ListOffsetResponse) : Prop :=
  (∃ k, k < 2 ∧ r = y.first k) ∨
    Cut.begun {} (fun t => t.Topics) (fun t x => { t with Topics := x }) (ListOffsetResponse.first 1) r y

/-- `ListOffsetResponse` with its receiver kept. -/
def ListOffsetResponse.keeps : KeptMsg ListOffsetResponse.type := { decode := ListOffsetResponse.decodeK, cut := ListOffsetResponse.cut, Part := ListOffsetResponse.Part }

theorem ListOffsetResponse.sameK (version : Int16) : KStep (ListOffsetResponse.decodeK version) (ListOffsetResponse.decode version) :=
  (KStep.onlyIf (KStep.field))
    |>.andThen (KStep.structs (fun _ => rfl) (ListOffsetTopicResponse2.sameK version {}))
theorem ListOffsetResponse.cutsK (version : Int16) (t : ListOffsetResponse) (h : t.Fits version) :
    Cuts (ListOffsetResponse.decodeK version) 0 (ListOffsetResponse.wire version t) (ListOffsetResponse.ends version t 1) (ListOffsetResponse.cutAt version t 0) (ListOffsetResponse.cutAt version t 2) :=
  (.optField (fun _ => reads_int32 t.ThrottleTimeMs) (fun _ => rfl) (fun _ => rfl) : Cuts _ 0 _ (ListOffsetResponse.ends version t 0) (ListOffsetResponse.cutAt version t 0) (ListOffsetResponse.cutAt version t 1))
    |>.andThen (.structs (ListOffsetTopicResponse2.sameK version {}) (fun x hx => ListOffsetTopicResponse2.reads version x hx {}) h.Topics (fun _ => rfl) (fun _ => rfl) : Cuts _ (ListOffsetResponse.ends version t 0) _ (ListOffsetResponse.ends version t 1) (ListOffsetResponse.cutAt version t 1) (ListOffsetResponse.cutAt version t 2))
theorem ListOffsetResponse.partsK (version : Int16) : Parts (ListOffsetResponse.decodeK version) (ListOffsetResponse.first 0) (ListOffsetResponse.first 2) (fun r y => ((r = ListOffsetResponse.first 0 y) ∨ (r = ListOffsetResponse.first 1 y ∨ Cut.begun {} (fun t => t.Topics) (fun t x => { t with Topics := x }) (ListOffsetResponse.first 1) r y))) :=
  (.onlyIf (.field Longer.int32 (fun _ => rfl) (fun _ _ => rfl) (fun _ _ => rfl) (fun _ => rfl)) (fun _ => rfl) : Parts (KDec.onlyIf (version ≥ 2) (KDec.field Dec.int32 0 (fun t x => { t with ThrottleTimeMs := x }))) (ListOffsetResponse.first 0) (ListOffsetResponse.first 1) (fun r y => r = ListOffsetResponse.first 0 y))
    |>.andThen (.structs (get := fun (t : ListOffsetResponse) => t.Topics) ((ListOffsetTopicResponse2.partsK version).longer {}) (fun _ => rfl) (fun _ => rfl) (fun _ _ => rfl) (fun _ _ => rfl) (fun _ _ => rfl) (fun _ => rfl) (fun _ => rfl) : Parts (KDec.fieldStructs (ListOffsetTopicResponse2.decodeK version {}) {} (fun t x => { t with Topics := x })) (ListOffsetResponse.first 1) (ListOffsetResponse.first 2) (fun r y => r = ListOffsetResponse.first 1 y ∨ Cut.begun {} (fun t => t.Topics) (fun t x => { t with Topics := x }) (ListOffsetResponse.first 1) r y))
theorem ListOffsetResponse.filled (version : Int16) : FilledStep 8 94489280552 (ListOffsetResponse.decode version) :=
  ((FilledStep.onlyIf (FilledStep.field .int32))
    |>.andThen (FilledStep.structs (ListOffsetTopicResponse2.filled version {}))).mono (by decide) (by decide)
theorem ListOffsetResponse.part_of (r y : ListOffsetResponse) (h : ((r = ListOffsetResponse.first 0 y) ∨ (r = ListOffsetResponse.first 1 y ∨ Cut.begun {} (fun t => t.Topics) (fun t x => { t with Topics := x }) (ListOffsetResponse.first 1) r y))) : ListOffsetResponse.Part r y :=
  match h with
    | (.inl h) => .inl ⟨0, by decide, h⟩
    | (.inr (.inl h)) => .inl ⟨1, by decide, h⟩
    | (.inr (.inr h)) => (.inr h)
theorem ListOffsetResponse.keeps_holds : ListOffsetResponse.keeps.Holds ListOffsetResponse.layout :=
  KeptMsg.holds ListOffsetResponse.lawful ListOffsetResponse.sameK (stop := fun v t => ListOffsetResponse.ends v t 1) (c := fun v t => ListOffsetResponse.cutAt v t 0) (fun _ _ _ => rfl) ListOffsetResponse.cutsK (c0 := ListOffsetResponse.first 0) rfl ListOffsetResponse.partsK ListOffsetResponse.part_of ListOffsetResponse.filled (by decide) (by decide)

/-- The structures of the ListOffset messages. -/
def keptListOffset : List (Σ (M : MsgType) (_ : Layout M), KeptMsg M) :=
  [⟨ListOffsetRequest.type, ListOffsetRequest.layout, ListOffsetRequest.keeps⟩,
   ⟨ListOffsetTopic2.type, ListOffsetTopic2.layout, ListOffsetTopic2.keeps⟩,
   ⟨ListOffsetPartition2.type, ListOffsetPartition2.layout, ListOffsetPartition2.keeps⟩,
   ⟨ListOffsetResponse.type, ListOffsetResponse.layout, ListOffsetResponse.keeps⟩,
   ⟨ListOffsetTopicResponse2.type, ListOffsetTopicResponse2.layout, ListOffsetTopicResponse2.keeps⟩,
   ⟨ListOffsetPartitionResponse2.type, ListOffsetPartitionResponse2.layout, ListOffsetPartitionResponse2.keeps⟩]
theorem keptListOffset_holds : ∀ p ∈ keptListOffset, p.2.2.Holds p.2.1 := by
  unfold keptListOffset
  simp only [List.forall_mem_cons]
  exact ⟨ListOffsetRequest.keeps_holds, ListOffsetTopic2.keeps_holds, ListOffsetPartition2.keeps_holds, ListOffsetResponse.keeps_holds, ListOffsetTopicResponse2.keeps_holds, ListOffsetPartitionResponse2.keeps_holds, fun _ h => absurd h (by simp)⟩

end Kafka.Msg
