import Verif.Message.KeptLemmas
import Verif.Gen.Proof.CreateTopics
/-!
Generated by tools/gen_messages.py: what is in the CreateTopics messages after an error.
-/
set_option linter.unusedVariables false
namespace Kafka.Msg

/-- message/messages.gen.go:5530-5541 `CreatableReplicaAssignment19.Decode`, with the receiver kept -/
def CreatableReplicaAssignment19.decodeK (_version : Int16) : KDec CreatableReplicaAssignment19 :=
    KDec.field Dec.int32 0 (fun t x => { t with PartitionIndex := x }) ;|>
    KDec.field Dec.int32Array none (fun t x => { t with BrokerIds := x })

/-- Where the fields of `CreatableReplicaAssignment19` end. -/
def CreatableReplicaAssignment19.ends (_version : Int16) (t : CreatableReplicaAssignment19) : Nat → Nat :=
  Cut.ends 0 [Wire.int32 t.PartitionIndex,
    Wire.int32Array t.BrokerIds]

/-- What is left of `t` if only its first `n` bytes are there. -/
def CreatableReplicaAssignment19.cut (version : Int16) (n : Nat) (t : CreatableReplicaAssignment19) : CreatableReplicaAssignment19 :=
  { PartitionIndex := Cut.field n (t.ends version 0) t.PartitionIndex 0,
    BrokerIds := Cut.field n (t.ends version 1) t.BrokerIds none }

/-- The same after the first `k` statements of `Decode`. -/
def CreatableReplicaAssignment19.cutAt (version : Int16) (t : CreatableReplicaAssignment19) (k n : Nat) : CreatableReplicaAssignment19 :=
  { PartitionIndex := upto k 0 (Cut.field n (t.ends version 0) t.PartitionIndex 0) 0,
    BrokerIds := upto k 1 (Cut.field n (t.ends version 1) t.BrokerIds none) none }

/-- The first `k` fields of `y`, and zeros. -/
def CreatableReplicaAssignment19.first (k : Nat) (y : CreatableReplicaAssignment19) : CreatableReplicaAssignment19 :=
  { PartitionIndex := upto k 0 y.PartitionIndex 0,
    BrokerIds := upto k 1 y.BrokerIds none }

/-- `r` is a beginning of `y`, and zeros. -/
def CreatableReplicaAssignment19.Part (r y : CreatableReplicaAssignment19) : Prop :=
  (∃ k, k < 2 ∧ r = y.first k)

/-- `CreatableReplicaAssignment19` with its receiver kept. -/
def CreatableReplicaAssignment19.keeps : KeptMsg CreatableReplicaAssignment19.type := { decode := CreatableReplicaAssignment19.decodeK, cut := CreatableReplicaAssignment19.cut, Part := CreatableReplicaAssignment19.Part }

theorem CreatableReplicaAssignment19.sameK (version : Int16) : KStep (CreatableReplicaAssignment19.decodeK version) (CreatableReplicaAssignment19.decode version) :=
  (KStep.field)
    |>.andThen (KStep.field)
theorem CreatableReplicaAssignment19.cutsK (version : Int16) (t : CreatableReplicaAssignment19) (h : t.Fits version) :
    Cuts (CreatableReplicaAssignment19.decodeK version) 0 (CreatableReplicaAssignment19.wire version t) (CreatableReplicaAssignment19.ends version t 1) (CreatableReplicaAssignment19.cutAt version t 0) (CreatableReplicaAssignment19.cutAt version t 2) :=
  (.field (reads_int32 t.PartitionIndex) (fun _ => rfl) (fun _ => rfl) : Cuts _ 0 _ (CreatableReplicaAssignment19.ends version t 0) (CreatableReplicaAssignment19.cutAt version t 0) (CreatableReplicaAssignment19.cutAt version t 1))
    |>.andThen (.field (reads_int32Array h.BrokerIds) (fun _ => rfl) (fun _ => rfl) : Cuts _ (CreatableReplicaAssignment19.ends version t 0) _ (CreatableReplicaAssignment19.ends version t 1) (CreatableReplicaAssignment19.cutAt version t 1) (CreatableReplicaAssignment19.cutAt version t 2))
theorem CreatableReplicaAssignment19.partsK (version : Int16) : Parts (CreatableReplicaAssignment19.decodeK version) (CreatableReplicaAssignment19.first 0) (CreatableReplicaAssignment19.first 2) (fun r y => ((r = CreatableReplicaAssignment19.first 0 y) ∨ (r = CreatableReplicaAssignment19.first 1 y))) :=
  (.field Longer.int32 (fun _ => rfl) (fun _ _ => rfl) (fun _ _ => rfl) (fun _ => rfl) : Parts (KDec.field Dec.int32 0 (fun t x => { t with PartitionIndex := x })) (CreatableReplicaAssignment19.first 0) (CreatableReplicaAssignment19.first 1) (fun r y => r = CreatableReplicaAssignment19.first 0 y))
    |>.andThen (.field Longer.int32Array (fun _ => rfl) (fun _ _ => rfl) (fun _ _ => rfl) (fun _ => rfl) : Parts (KDec.field Dec.int32Array none (fun t x => { t with BrokerIds := x })) (CreatableReplicaAssignment19.first 1) (CreatableReplicaAssignment19.first 2) (fun r y => r = CreatableReplicaAssignment19.first 1 y))
theorem CreatableReplicaAssignment19.filled (version : Int16) : FilledStep 8 8589934600 (CreatableReplicaAssignment19.decode version) :=
  ((FilledStep.field .int32)
    |>.andThen (FilledStep.field .int32Array)).mono (by decide) (by decide)
theorem CreatableReplicaAssignment19.part_of (r y : CreatableReplicaAssignment19) (h : ((r = CreatableReplicaAssignment19.first 0 y) ∨ (r = CreatableReplicaAssignment19.first 1 y))) : CreatableReplicaAssignment19.Part r y :=
  match h with
    | (.inl h) => ⟨0, by decide, h⟩
    | (.inr h) => ⟨1, by decide, h⟩
theorem CreatableReplicaAssignment19.keeps_holds : CreatableReplicaAssignment19.keeps.Holds CreatableReplicaAssignment19.layout :=
  KeptMsg.holds CreatableReplicaAssignment19.lawful CreatableReplicaAssignment19.sameK (stop := fun v t => CreatableReplicaAssignment19.ends v t 1) (c := fun v t => CreatableReplicaAssignment19.cutAt v t 0) (fun _ _ _ => rfl) CreatableReplicaAssignment19.cutsK (c0 := CreatableReplicaAssignment19.first 0) rfl CreatableReplicaAssignment19.partsK CreatableReplicaAssignment19.part_of CreatableReplicaAssignment19.filled (by decide) (by decide)

/-- message/messages.gen.go:5563-5574 `CreateableTopicConfig19.Decode`, with the receiver kept -/
def CreateableTopicConfig19.decodeK (_version : Int16) : KDec CreateableTopicConfig19 :=
    KDec.field Dec.string [] (fun t x => { t with Name := x }) ;|>
    KDec.field Dec.string [] (fun t x => { t with Value := x })

/-- Where the fields of `CreateableTopicConfig19` end. -/
def CreateableTopicConfig19.ends (_version : Int16) (t : CreateableTopicConfig19) : Nat → Nat :=
  Cut.ends 0 [Wire.string t.Name,
    Wire.string t.Value]

/-- What is left of `t` if only its first `n` bytes are there. -/
def CreateableTopicConfig19.cut (version : Int16) (n : Nat) (t : CreateableTopicConfig19) : CreateableTopicConfig19 :=
  { Name := Cut.field n (t.ends version 0) t.Name [],
    Value := Cut.field n (t.ends version 1) t.Value [] }

/-- The same after the first `k` statements of `Decode`. -/
def CreateableTopicConfig19.cutAt (version : Int16) (t : CreateableTopicConfig19) (k n : Nat) : CreateableTopicConfig19 :=
  { Name := upto k 0 (Cut.field n (t.ends version 0) t.Name []) [],
    Value := upto k 1 (Cut.field n (t.ends version 1) t.Value []) [] }

/-- The first `k` fields of `y`, and zeros. -/
def CreateableTopicConfig19.first (k : Nat) (y : CreateableTopicConfig19) : CreateableTopicConfig19 :=
  { Name := upto k 0 y.Name [],
    Value := upto k 1 y.Value [] }

/-- `r` is a beginning of `y`, and zeros. -/
def CreateableTopicConfig19.Part (r y : CreateableTopicConfig19) : Prop :=
  (∃ k, k < 2 ∧ r = y.first k)

/-- `CreateableTopicConfig19` with its receiver kept. -/
def CreateableTopicConfig19.keeps : KeptMsg CreateableTopicConfig19.type := { decode := CreateableTopicConfig19.decodeK, cut := CreateableTopicConfig19.cut, Part := CreateableTopicConfig19.Part }

theorem CreateableTopicConfig19.sameK (version : Int16) : KStep (CreateableTopicConfig19.decodeK version) (CreateableTopicConfig19.decode version) :=
  (KStep.field)
    |>.andThen (KStep.field)
theorem CreateableTopicConfig19.cutsK (version : Int16) (t : CreateableTopicConfig19) (h : t.Fits version) :
    Cuts (CreateableTopicConfig19.decodeK version) 0 (CreateableTopicConfig19.wire version t) (CreateableTopicConfig19.ends version t 1) (CreateableTopicConfig19.cutAt version t 0) (CreateableTopicConfig19.cutAt version t 2) :=
  (.field (reads_string h.Name) (fun _ => rfl) (fun _ => rfl) : Cuts _ 0 _ (CreateableTopicConfig19.ends version t 0) (CreateableTopicConfig19.cutAt version t 0) (CreateableTopicConfig19.cutAt version t 1))
    |>.andThen (.field (reads_string h.Value) (fun _ => rfl) (fun _ => rfl) : Cuts _ (CreateableTopicConfig19.ends version t 0) _ (CreateableTopicConfig19.ends version t 1) (CreateableTopicConfig19.cutAt version t 1) (CreateableTopicConfig19.cutAt version t 2))
theorem CreateableTopicConfig19.partsK (version : Int16) : Parts (CreateableTopicConfig19.decodeK version) (CreateableTopicConfig19.first 0) (CreateableTopicConfig19.first 2) (fun r y => ((r = CreateableTopicConfig19.first 0 y) ∨ (r = CreateableTopicConfig19.first 1 y))) :=
  (.field Longer.string (fun _ => rfl) (fun _ _ => rfl) (fun _ _ => rfl) (fun _ => rfl) : Parts (KDec.field Dec.string [] (fun t x => { t with Name := x })) (CreateableTopicConfig19.first 0) (CreateableTopicConfig19.first 1) (fun r y => r = CreateableTopicConfig19.first 0 y))
    |>.andThen (.field Longer.string (fun _ => rfl) (fun _ _ => rfl) (fun _ _ => rfl) (fun _ => rfl) : Parts (KDec.field Dec.string [] (fun t x => { t with Value := x })) (CreateableTopicConfig19.first 1) (CreateableTopicConfig19.first 2) (fun r y => r = CreateableTopicConfig19.first 1 y))
theorem CreateableTopicConfig19.filled (version : Int16) : FilledStep 4 32772 (CreateableTopicConfig19.decode version) :=
  ((FilledStep.field .string)
    |>.andThen (FilledStep.field .string)).mono (by decide) (by decide)
theorem CreateableTopicConfig19.part_of (r y : CreateableTopicConfig19) (h : ((r = CreateableTopicConfig19.first 0 y) ∨ (r = CreateableTopicConfig19.first 1 y))) : CreateableTopicConfig19.Part r y :=
  match h with
    | (.inl h) => ⟨0, by decide, h⟩
    | (.inr h) => ⟨1, by decide, h⟩
theorem CreateableTopicConfig19.keeps_holds : CreateableTopicConfig19.keeps.Holds CreateableTopicConfig19.layout :=
  KeptMsg.holds CreateableTopicConfig19.lawful CreateableTopicConfig19.sameK (stop := fun v t => CreateableTopicConfig19.ends v t 1) (c := fun v t => CreateableTopicConfig19.cutAt v t 0) (fun _ _ _ => rfl) CreateableTopicConfig19.cutsK (c0 := CreateableTopicConfig19.first 0) rfl CreateableTopicConfig19.partsK CreateableTopicConfig19.part_of CreateableTopicConfig19.filled (by decide) (by decide)

/-- message/messages.gen.go:5467-5508 `CreatableTopic19.Decode`, with the receiver kept -/
def CreatableTopic19.decodeK (version : Int16) : KDec CreatableTopic19 :=
    KDec.field Dec.string [] (fun t x => { t with Name := x }) ;|>
    KDec.field Dec.int32 0 (fun t x => { t with NumPartitions := x }) ;|>
    KDec.field Dec.int16 0 (fun t x => { t with ReplicationFactor := x }) ;|>
    KDec.fieldStructs (CreatableReplicaAssignment19.decodeK version {}) {} (fun t x => { t with Assignments := x }) ;|>
    KDec.fieldStructs (CreateableTopicConfig19.decodeK version {}) {} (fun t x => { t with Configs := x })

/-- Where the fields of `CreatableTopic19` end. -/
def CreatableTopic19.ends (version : Int16) (t : CreatableTopic19) : Nat → Nat :=
  Cut.ends 0 [Wire.string t.Name,
    Wire.int32 t.NumPartitions,
    Wire.int16 t.ReplicationFactor,
    Wire.array (CreatableReplicaAssignment19.wire version) t.Assignments,
    Wire.array (CreateableTopicConfig19.wire version) t.Configs]

/-- What is left of `t` if only its first `n` bytes are there. -/
def CreatableTopic19.cut (version : Int16) (n : Nat) (t : CreatableTopic19) : CreatableTopic19 :=
  { Name := Cut.field n (t.ends version 0) t.Name [],
    NumPartitions := Cut.field n (t.ends version 1) t.NumPartitions 0,
    ReplicationFactor := Cut.field n (t.ends version 2) t.ReplicationFactor 0,
    Assignments := Cut.array n (t.ends version 2) (CreatableReplicaAssignment19.wire version) (fun x => x.seen version {}) {} t.Assignments,
    Configs := Cut.array n (t.ends version 3) (CreateableTopicConfig19.wire version) (fun x => x.seen version {}) {} t.Configs }

/-- The same after the first `k` statements of `Decode`. -/
def CreatableTopic19.cutAt (version : Int16) (t : CreatableTopic19) (k n : Nat) : CreatableTopic19 :=
  { Name := upto k 0 (Cut.field n (t.ends version 0) t.Name []) [],
    NumPartitions := upto k 1 (Cut.field n (t.ends version 1) t.NumPartitions 0) 0,
    ReplicationFactor := upto k 2 (Cut.field n (t.ends version 2) t.ReplicationFactor 0) 0,
    Assignments := upto k 3 (Cut.array n (t.ends version 2) (CreatableReplicaAssignment19.wire version) (fun x => x.seen version {}) {} t.Assignments) none,
    Configs := upto k 4 (Cut.array n (t.ends version 3) (CreateableTopicConfig19.wire version) (fun x => x.seen version {}) {} t.Configs) none }

/-- The first `k` fields of `y`, and zeros. -/
def CreatableTopic19.first (k : Nat) (y : CreatableTopic19) : CreatableTopic19 :=
  { Name := upto k 0 y.Name [],
    NumPartitions := upto k 1 y.NumPartitions 0,
    ReplicationFactor := upto k 2 y.ReplicationFactor 0,
    Assignments := upto k 3 y.Assignments none,
    Configs := upto k 4 y.Configs none }

/-- `r` is a beginning of `y`, and zeros. -/
def CreatableTopic19.Part (r y : CreatableTopic19) : Prop :=
  (∃ k, k < 5 ∧ r = y.first k) ∨
    Cut.begun {} (fun t => t.Assignments) (fun t x => { t with Assignments := x }) (CreatableTopic19.first 3) r y ∨
    Cut.begun {} (fun t => t.Configs) (fun t x => { t with Configs := x }) (CreatableTopic19.first 4) r y

/-- `CreatableTopic19` with its receiver kept. -/
def CreatableTopic19.keeps : KeptMsg CreatableTopic19.type := { decode := CreatableTopic19.decodeK, cut := CreatableTopic19.cut, Part := CreatableTopic19.Part }

theorem CreatableTopic19.sameK (version : Int16) : KStep (CreatableTopic19.decodeK version) (CreatableTopic19.decode version) :=
  (KStep.field)
    |>.andThen (KStep.field)
    |>.andThen (KStep.field)
    |>.andThen (KStep.structs (fun _ => rfl) (CreatableReplicaAssignment19.sameK version {}))
    |>.andThen (KStep.structs (fun _ => rfl) (CreateableTopicConfig19.sameK version {}))
theorem CreatableTopic19.cutsK (version : Int16) (t : CreatableTopic19) (h : t.Fits version) :
    Cuts (CreatableTopic19.decodeK version) 0 (CreatableTopic19.wire version t) (CreatableTopic19.ends version t 4) (CreatableTopic19.cutAt version t 0) (CreatableTopic19.cutAt version t 5) :=
  (.field (reads_string h.Name) (fun _ => rfl) (fun _ => rfl) : Cuts _ 0 _ (CreatableTopic19.ends version t 0) (CreatableTopic19.cutAt version t 0) (CreatableTopic19.cutAt version t 1))
    |>.andThen (.field (reads_int32 t.NumPartitions) (fun _ => rfl) (fun _ => rfl) : Cuts _ (CreatableTopic19.ends version t 0) _ (CreatableTopic19.ends version t 1) (CreatableTopic19.cutAt version t 1) (CreatableTopic19.cutAt version t 2))
    |>.andThen (.field (reads_int16 t.ReplicationFactor) (fun _ => rfl) (fun _ => rfl) : Cuts _ (CreatableTopic19.ends version t 1) _ (CreatableTopic19.ends version t 2) (CreatableTopic19.cutAt version t 2) (CreatableTopic19.cutAt version t 3))
    |>.andThen (.structs (CreatableReplicaAssignment19.sameK version {}) (fun x hx => CreatableReplicaAssignment19.reads version x hx {}) h.Assignments (fun _ => rfl) (fun _ => rfl) : Cuts _ (CreatableTopic19.ends version t 2) _ (CreatableTopic19.ends version t 3) (CreatableTopic19.cutAt version t 3) (CreatableTopic19.cutAt version t 4))
    |>.andThen (.structs (CreateableTopicConfig19.sameK version {}) (fun x hx => CreateableTopicConfig19.reads version x hx {}) h.Configs (fun _ => rfl) (fun _ => rfl) : Cuts _ (CreatableTopic19.ends version t 3) _ (CreatableTopic19.ends version t 4) (CreatableTopic19.cutAt version t 4) (CreatableTopic19.cutAt version t 5))
theorem CreatableTopic19.partsK (version : Int16) : Parts (CreatableTopic19.decodeK version) (CreatableTopic19.first 0) (CreatableTopic19.first 5) (fun r y => (((((r = CreatableTopic19.first 0 y) ∨ (r = CreatableTopic19.first 1 y)) ∨ (r = CreatableTopic19.first 2 y)) ∨ (r = CreatableTopic19.first 3 y ∨ Cut.begun {} (fun t => t.Assignments) (fun t x => { t with Assignments := x }) (CreatableTopic19.first 3) r y)) ∨ (r = CreatableTopic19.first 4 y ∨ Cut.begun {} (fun t => t.Configs) (fun t x => { t with Configs := x }) (CreatableTopic19.first 4) r y))) :=
  (.field Longer.string (fun _ => rfl) (fun _ _ => rfl) (fun _ _ => rfl) (fun _ => rfl) : Parts (KDec.field Dec.string [] (fun t x => { t with Name := x })) (CreatableTopic19.first 0) (CreatableTopic19.first 1) (fun r y => r = CreatableTopic19.first 0 y))
    |>.andThen (.field Longer.int32 (fun _ => rfl) (fun _ _ => rfl) (fun _ _ => rfl) (fun _ => rfl) : Parts (KDec.field Dec.int32 0 (fun t x => { t with NumPartitions := x })) (CreatableTopic19.first 1) (CreatableTopic19.first 2) (fun r y => r = CreatableTopic19.first 1 y))
    |>.andThen (.field Longer.int16 (fun _ => rfl) (fun _ _ => rfl) (fun _ _ => rfl) (fun _ => rfl) : Parts (KDec.field Dec.int16 0 (fun t x => { t with ReplicationFactor := x })) (CreatableTopic19.first 2) (CreatableTopic19.first 3) (fun r y => r = CreatableTopic19.first 2 y))
    |>.andThen (.structs (get := fun (t : CreatableTopic19) => t.Assignments) ((CreatableReplicaAssignment19.partsK version).longer {}) (fun _ => rfl) (fun _ => rfl) (fun _ _ => rfl) (fun _ _ => rfl) (fun _ _ => rfl) (fun _ => rfl) (fun _ => rfl) : Parts (KDec.fieldStructs (CreatableReplicaAssignment19.decodeK version {}) {} (fun t x => { t with Assignments := x })) (CreatableTopic19.first 3) (CreatableTopic19.first 4) (fun r y => r = CreatableTopic19.first 3 y ∨ Cut.begun {} (fun t => t.Assignments) (fun t x => { t with Assignments := x }) (CreatableTopic19.first 3) r y))
    |>.andThen (.structs (get := fun (t : CreatableTopic19) => t.Configs) ((CreateableTopicConfig19.partsK version).longer {}) (fun _ => rfl) (fun _ => rfl) (fun _ _ => rfl) (fun _ _ => rfl) (fun _ _ => rfl) (fun _ => rfl) (fun _ => rfl) : Parts (KDec.fieldStructs (CreateableTopicConfig19.decodeK version {}) {} (fun t x => { t with Configs := x })) (CreatableTopic19.first 4) (CreatableTopic19.first 5) (fun r y => r = CreatableTopic19.first 4 y ∨ Cut.begun {} (fun t => t.Configs) (fun t x => { t with Configs := x }) (CreatableTopic19.first 4) r y))
theorem CreatableTopic19.filled (version : Int16) : FilledStep 16 25769803792 (CreatableTopic19.decode version) :=
  ((FilledStep.field .string)
    |>.andThen (FilledStep.field .int32)
    |>.andThen (FilledStep.field .int16)
    |>.andThen (FilledStep.structs (CreatableReplicaAssignment19.filled version {}))
    |>.andThen (FilledStep.structs (CreateableTopicConfig19.filled version {}))).mono (by decide) (by decide)
theorem CreatableTopic19.part_of (r y : CreatableTopic19) (h : (((((r = CreatableTopic19.first 0 y) ∨ (r = CreatableTopic19.first 1 y)) ∨ (r = CreatableTopic19.first 2 y)) ∨ (r = CreatableTopic19.first 3 y ∨ Cut.begun {} (fun t => t.Assignments) (fun t x => { t with Assignments := x }) (CreatableTopic19.first 3) r y)) ∨ (r = CreatableTopic19.first 4 y ∨ Cut.begun {} (fun t => t.Configs) (fun t x => { t with Configs := x }) (CreatableTopic19.first 4) r y))) : CreatableTopic19.Part r y :=
  match h with
    | (.inl (.inl (.inl (.inl h)))) => .inl ⟨0, by decide, h⟩
    | (.inl (.inl (.inl (.inr h)))) => .inl ⟨1, by decide, h⟩
    | (.inl (.inl (.inr h))) => .inl ⟨2, by decide, h⟩
    | (.inl (.inr (.inl h))) => .inl ⟨3, by decide, h⟩
    | (.inl (.inr (.inr h))) => (.inr (.inl h))
    | (.inr (.inl h)) => .inl ⟨4, by decide, h⟩
    | (.inr (.inr h)) => (.inr (.inr h))
theorem CreatableTopic19.keeps_holds : CreatableTopic19.keeps.Holds CreatableTopic19.layout :=
  KeptMsg.holds CreatableTopic19.lawful CreatableTopic19.sameK (stop := fun v t => CreatableTopic19.ends v t 4) (c := fun v t => CreatableTopic19.cutAt v t 0) (fun _ _ _ => rfl) CreatableTopic19.cutsK (c0 := CreatableTopic19.first 0) rfl CreatableTopic19.partsK CreatableTopic19.part_of CreatableTopic19.filled (by decide) (by decide)

/-- message/messages.gen.go:5394-5420 `CreateTopicsRequest.Decode`, with the receiver kept -/
def CreateTopicsRequest.decodeK (version : Int16) : KDec CreateTopicsRequest :=
    KDec.fieldStructs (CreatableTopic19.decodeK version {}) {} (fun t x => { t with Topics := x }) ;|>
    KDec.field Dec.int32 0 (fun t x => { t with timeoutMs := x }) ;|>
    KDec.onlyIf (version ≥ 1) (KDec.field Dec.bool false (fun t x => { t with validateOnly := x }))

/-- Where the fields of `CreateTopicsRequest` end. -/
def CreateTopicsRequest.ends (version : Int16) (t : CreateTopicsRequest) : Nat → Nat :=
  Cut.ends 0 [Wire.array (CreatableTopic19.wire version) t.Topics,
    Wire.int32 t.timeoutMs,
    Wire.when (version ≥ 1) (Wire.bool t.validateOnly)]

/-- What is left of `t` if only its first `n` bytes are there. -/
def CreateTopicsRequest.cut (version : Int16) (n : Nat) (t : CreateTopicsRequest) : CreateTopicsRequest :=
  { Topics := Cut.array n 0 (CreatableTopic19.wire version) (fun x => x.seen version {}) {} t.Topics,
    timeoutMs := Cut.field n (t.ends version 1) t.timeoutMs 0,
    validateOnly := Cut.gate (version ≥ 1) (Cut.field n (t.ends version 2) t.validateOnly false) false }

/-- The same after the first `k` statements of `Decode`. -/
def CreateTopicsRequest.cutAt (version : Int16) (t : CreateTopicsRequest) (k n : Nat) : CreateTopicsRequest :=
  { Topics := upto k 0 (Cut.array n 0 (CreatableTopic19.wire version) (fun x => x.seen version {}) {} t.Topics) none,
    timeoutMs := upto k 1 (Cut.field n (t.ends version 1) t.timeoutMs 0) 0,
    validateOnly := upto k 2 (Cut.gate (version ≥ 1) (Cut.field n (t.ends version 2) t.validateOnly false) false) false }

/-- The first `k` fields of `y`, and zeros. -/
def CreateTopicsRequest.first (k : Nat) (y : CreateTopicsRequest) : CreateTopicsRequest :=
  { Topics := upto k 0 y.Topics none,
    timeoutMs := upto k 1 y.timeoutMs 0,
    validateOnly := upto k 2 y.validateOnly false }

/-- `r` is a beginning of `y`, and zeros. -/
def CreateTopicsRequest.Part (r y : CreateTopicsRequest) : Prop :=
  (∃ k, k < 3 ∧ r = y.first k) ∨
    Cut.begun {} (fun t => t.Topics) (fun t x => { t with Topics := x }) (CreateTopicsRequest.first 0) r y

/-- `CreateTopicsRequest` with its receiver kept. -/
def CreateTopicsRequest.keeps : KeptMsg CreateTopicsRequest.type := { decode := CreateTopicsRequest.decodeK, cut := CreateTopicsRequest.cut, Part := CreateTopicsRequest.Part }

theorem CreateTopicsRequest.sameK (version : Int16) : KStep (CreateTopicsRequest.decodeK version) (CreateTopicsRequest.decode version) :=
  (KStep.structs (fun _ => rfl) (CreatableTopic19.sameK version {}))
    |>.andThen (KStep.field)
    |>.andThen (KStep.onlyIf (KStep.field))
theorem CreateTopicsRequest.cutsK (version : Int16) (t : CreateTopicsRequest) (h : t.Fits version) :
    Cuts (CreateTopicsRequest.decodeK version) 0 (CreateTopicsRequest.wire version t) (CreateTopicsRequest.ends version t 2) (CreateTopicsRequest.cutAt version t 0) (CreateTopicsRequest.cutAt version t 3) :=
  (.structs (CreatableTopic19.sameK version {}) (fun x hx => CreatableTopic19.reads version x hx {}) h.Topics (fun _ => rfl) (fun _ => rfl) : Cuts _ 0 _ (CreateTopicsRequest.ends version t 0) (CreateTopicsRequest.cutAt version t 0) (CreateTopicsRequest.cutAt version t 1))
    |>.andThen (.field (reads_int32 t.timeoutMs) (fun _ => rfl) (fun _ => rfl) : Cuts _ (CreateTopicsRequest.ends version t 0) _ (CreateTopicsRequest.ends version t 1) (CreateTopicsRequest.cutAt version t 1) (CreateTopicsRequest.cutAt version t 2))
    |>.andThen (.optField (fun _ => reads_bool t.validateOnly) (fun _ => rfl) (fun _ => rfl) : Cuts _ (CreateTopicsRequest.ends version t 1) _ (CreateTopicsRequest.ends version t 2) (CreateTopicsRequest.cutAt version t 2) (CreateTopicsRequest.cutAt version t 3))
theorem CreateTopicsRequest.partsK (version : Int16) : Parts (CreateTopicsRequest.decodeK version) (CreateTopicsRequest.first 0) (CreateTopicsRequest.first 3) (fun r y => (((r = CreateTopicsRequest.first 0 y ∨ Cut.begun {} (fun t => t.Topics) (fun t x => { t with Topics := x }) (CreateTopicsRequest.first 0) r y) ∨ (r = CreateTopicsRequest.first 1 y)) ∨ (r = CreateTopicsRequest.first 2 y))) :=
  (.structs (get := fun (t : CreateTopicsRequest) => t.Topics) ((CreatableTopic19.partsK version).longer {}) (fun _ => rfl) (fun _ => rfl) (fun _ _ => rfl) (fun _ _ => rfl) (fun _ _ => rfl) (fun _ => rfl) (fun _ => rfl) : Parts (KDec.fieldStructs (CreatableTopic19.decodeK version {}) {} (fun t x => { t with Topics := x })) (CreateTopicsRequest.first 0) (CreateTopicsRequest.first 1) (fun r y => r = CreateTopicsRequest.first 0 y ∨ Cut.begun {} (fun t => t.Topics) (fun t x => { t with Topics := x }) (CreateTopicsRequest.first 0) r y))
    |>.andThen (.field Longer.int32 (fun _ => rfl) (fun _ _ => rfl) (fun _ _ => rfl) (fun _ => rfl) : Parts (KDec.field Dec.int32 0 (fun t x => { t with timeoutMs := x })) (CreateTopicsRequest.first 1) (CreateTopicsRequest.first 2) (fun r y => r = CreateTopicsRequest.first 1 y))
    |>.andThen (.onlyIf (.field Longer.bool (fun _ => rfl) (fun _ _ => rfl) (fun _ _ => rfl) (fun _ => rfl)) (fun _ => rfl) : Parts (KDec.onlyIf (version ≥ 1) (KDec.field Dec.bool false (fun t x => { t with validateOnly := x }))) (CreateTopicsRequest.first 2) (CreateTopicsRequest.first 3) (fun r y => r = CreateTopicsRequest.first 2 y))
theorem CreateTopicsRequest.filled (version : Int16) : FilledStep 9 60129542169 (CreateTopicsRequest.decode version) :=
  ((FilledStep.structs (CreatableTopic19.filled version {}))
    |>.andThen (FilledStep.field .int32)
    |>.andThen (FilledStep.onlyIf (FilledStep.field .bool))).mono (by decide) (by decide)
theorem CreateTopicsRequest.part_of (r y : CreateTopicsRequest) (h : (((r = CreateTopicsRequest.first 0 y ∨ Cut.begun {} (fun t => t.Topics) (fun t x => { t with Topics := x }) (CreateTopicsRequest.first 0) r y) ∨ (r = CreateTopicsRequest.first 1 y)) ∨ (r = CreateTopicsRequest.first 2 y))) : CreateTopicsRequest.Part r y :=
  match h with
    | (.inl (.inl (.inl h))) => .inl ⟨0, by decide, h⟩
    | (.inl (.inl (.inr h))) => (.inr h)
    | (.inl (.inr h)) => .inl ⟨1, by decide, h⟩
    | (.inr h) => .inl ⟨2, by decide, h⟩
theorem CreateTopicsRequest.keeps_holds : CreateTopicsRequest.keeps.Holds CreateTopicsRequest.layout :=
  KeptMsg.holds CreateTopicsRequest.lawful CreateTopicsRequest.sameK (stop := fun v t => CreateTopicsRequest.ends v t 2) (c := fun v t => CreateTopicsRequest.cutAt v t 0) (fun _ _ _ => rfl) CreateTopicsRequest.cutsK (c0 := CreateTopicsRequest.first 0) rfl CreateTopicsRequest.partsK CreateTopicsRequest.part_of CreateTopicsRequest.filled (by decide) (by decide)

/-- message/messages.gen.go:5797-5830 `CreatableTopicConfigs19.Decode`, with the receiver kept -/
def CreatableTopicConfigs19.decodeK (version : Int16) : KDec CreatableTopicConfigs19 :=
    KDec.onlyIf (version ≥ 5) (KDec.field Dec.string [] (fun t x => { t with Name := x })) ;|>
    KDec.onlyIf (version ≥ 5) (KDec.field Dec.string [] (fun t x => { t with Value := x })) ;|>
    KDec.onlyIf (version ≥ 5) (KDec.field Dec.bool false (fun t x => { t with ReadOnly := x })) ;|>
    KDec.onlyIf (version ≥ 5) (KDec.field Dec.int8 0 (fun t x => { t with ConfigSource := x })) ;|>
    KDec.onlyIf (version ≥ 5) (KDec.field Dec.bool false (fun t x => { t with IsSensitive := x }))

/-- Where the fields of `CreatableTopicConfigs19` end. -/
def CreatableTopicConfigs19.ends (version : Int16) (t : CreatableTopicConfigs19) : Nat → Nat :=
  Cut.ends 0 [Wire.when (version ≥ 5) (Wire.string t.Name),
    Wire.when (version ≥ 5) (Wire.string t.Value),
    Wire.when (version ≥ 5) (Wire.bool t.ReadOnly),
    Wire.when (version ≥ 5) (Wire.int8 t.ConfigSource),
    Wire.when (version ≥ 5) (Wire.bool t.IsSensitive)]

/-- What is left of `t` if only its first `n` bytes are there. -/
def CreatableTopicConfigs19.cut (version : Int16) (n : Nat) (t : CreatableTopicConfigs19) : CreatableTopicConfigs19 :=
  { Name := Cut.gate (version ≥ 5) (Cut.field n (t.ends version 0) t.Name []) [],
    Value := Cut.gate (version ≥ 5) (Cut.field n (t.ends version 1) t.Value []) [],
    ReadOnly := Cut.gate (version ≥ 5) (Cut.field n (t.ends version 2) t.ReadOnly false) false,
    ConfigSource := Cut.gate (version ≥ 5) (Cut.field n (t.ends version 3) t.ConfigSource 0) 0,
    IsSensitive := Cut.gate (version ≥ 5) (Cut.field n (t.ends version 4) t.IsSensitive false) false }

/-- The same after the first `k` statements of `Decode`. -/
def CreatableTopicConfigs19.cutAt (version : Int16) (t : CreatableTopicConfigs19) (k n : Nat) : CreatableTopicConfigs19 :=
  { Name := upto k 0 (Cut.gate (version ≥ 5) (Cut.field n (t.ends version 0) t.Name []) []) [],
    Value := upto k 1 (Cut.gate (version ≥ 5) (Cut.field n (t.ends version 1) t.Value []) []) [],
    ReadOnly := upto k 2 (Cut.gate (version ≥ 5) (Cut.field n (t.ends version 2) t.ReadOnly false) false) false,
    ConfigSource := upto k 3 (Cut.gate (version ≥ 5) (Cut.field n (t.ends version 3) t.ConfigSource 0) 0) 0,
    IsSensitive := upto k 4 (Cut.gate (version ≥ 5) (Cut.field n (t.ends version 4) t.IsSensitive false) false) false }

/-- The first `k` fields of `y`, and zeros. -/
def CreatableTopicConfigs19.first (k : Nat) (y : CreatableTopicConfigs19) : CreatableTopicConfigs19 :=
  { Name := upto k 0 y.Name [],
    Value := upto k 1 y.Value [],
    ReadOnly := upto k 2 y.ReadOnly false,
    ConfigSource := upto k 3 y.ConfigSource 0,
    IsSensitive := upto k 4 y.IsSensitive false }

/-- `r` is a beginning of `y`, and zeros. -/
def CreatableTopicConfigs19.Part (r y : CreatableTopicConfigs19) : Prop :=
  (∃ k, k < 5 ∧ r = y.first k)

/-- `CreatableTopicConfigs19` with its receiver kept. -/
def CreatableTopicConfigs19.keeps : KeptMsg CreatableTopicConfigs19.type := { decode := CreatableTopicConfigs19.decodeK, cut := CreatableTopicConfigs19.cut, Part := CreatableTopicConfigs19.Part }

theorem CreatableTopicConfigs19.sameK (version : Int16) : KStep (CreatableTopicConfigs19.decodeK version) (CreatableTopicConfigs19.decode version) :=
  (KStep.onlyIf (KStep.field))
    |>.andThen (KStep.onlyIf (KStep.field))
    |>.andThen (KStep.onlyIf (KStep.field))
    |>.andThen (KStep.onlyIf (KStep.field))
    |>.andThen (KStep.onlyIf (KStep.field))
theorem CreatableTopicConfigs19.cutsK (version : Int16) (t : CreatableTopicConfigs19) (h : t.Fits version) :
    Cuts (CreatableTopicConfigs19.decodeK version) 0 (CreatableTopicConfigs19.wire version t) (CreatableTopicConfigs19.ends version t 4) (CreatableTopicConfigs19.cutAt version t 0) (CreatableTopicConfigs19.cutAt version t 5) :=
  (.optField (fun hc => reads_string (h.Name hc)) (fun _ => rfl) (fun _ => rfl) : Cuts _ 0 _ (CreatableTopicConfigs19.ends version t 0) (CreatableTopicConfigs19.cutAt version t 0) (CreatableTopicConfigs19.cutAt version t 1))
    |>.andThen (.optField (fun hc => reads_string (h.Value hc)) (fun _ => rfl) (fun _ => rfl) : Cuts _ (CreatableTopicConfigs19.ends version t 0) _ (CreatableTopicConfigs19.ends version t 1) (CreatableTopicConfigs19.cutAt version t 1) (CreatableTopicConfigs19.cutAt version t 2))
    |>.andThen (.optField (fun _ => reads_bool t.ReadOnly) (fun _ => rfl) (fun _ => rfl) : Cuts _ (CreatableTopicConfigs19.ends version t 1) _ (CreatableTopicConfigs19.ends version t 2) (CreatableTopicConfigs19.cutAt version t 2) (CreatableTopicConfigs19.cutAt version t 3))
    |>.andThen (.optField (fun _ => reads_int8 t.ConfigSource) (fun _ => rfl) (fun _ => rfl) : Cuts _ (CreatableTopicConfigs19.ends version t 2) _ (CreatableTopicConfigs19.ends version t 3) (CreatableTopicConfigs19.cutAt version t 3) (CreatableTopicConfigs19.cutAt version t 4))
    |>.andThen (.optField (fun _ => reads_bool t.IsSensitive) (fun _ => rfl) (fun _ => rfl) : Cuts _ (CreatableTopicConfigs19.ends version t 3) _ (CreatableTopicConfigs19.ends version t 4) (CreatableTopicConfigs19.cutAt version t 4) (CreatableTopicConfigs19.cutAt version t 5))
theorem CreatableTopicConfigs19.partsK (version : Int16) : Parts (CreatableTopicConfigs19.decodeK version) (CreatableTopicConfigs19.first 0) (CreatableTopicConfigs19.first 5) (fun r y => (((((r = CreatableTopicConfigs19.first 0 y) ∨ (r = CreatableTopicConfigs19.first 1 y)) ∨ (r = CreatableTopicConfigs19.first 2 y)) ∨ (r = CreatableTopicConfigs19.first 3 y)) ∨ (r = CreatableTopicConfigs19.first 4 y))) :=
  (.onlyIf (.field Longer.string (fun _ => rfl) (fun _ _ => rfl) (fun _ _ => rfl) (fun _ => rfl)) (fun _ => rfl) : Parts (KDec.onlyIf (version ≥ 5) (KDec.field Dec.string [] (fun t x => { t with Name := x }))) (CreatableTopicConfigs19.first 0) (CreatableTopicConfigs19.first 1) (fun r y => r = CreatableTopicConfigs19.first 0 y))
    |>.andThen (.onlyIf (.field Longer.string (fun _ => rfl) (fun _ _ => rfl) (fun _ _ => rfl) (fun _ => rfl)) (fun _ => rfl) : Parts (KDec.onlyIf (version ≥ 5) (KDec.field Dec.string [] (fun t x => { t with Value := x }))) (CreatableTopicConfigs19.first 1) (CreatableTopicConfigs19.first 2) (fun r y => r = CreatableTopicConfigs19.first 1 y))
    |>.andThen (.onlyIf (.field Longer.bool (fun _ => rfl) (fun _ _ => rfl) (fun _ _ => rfl) (fun _ => rfl)) (fun _ => rfl) : Parts (KDec.onlyIf (version ≥ 5) (KDec.field Dec.bool false (fun t x => { t with ReadOnly := x }))) (CreatableTopicConfigs19.first 2) (CreatableTopicConfigs19.first 3) (fun r y => r = CreatableTopicConfigs19.first 2 y))
    |>.andThen (.onlyIf (.field Longer.int8 (fun _ => rfl) (fun _ _ => rfl) (fun _ _ => rfl) (fun _ => rfl)) (fun _ => rfl) : Parts (KDec.onlyIf (version ≥ 5) (KDec.field Dec.int8 0 (fun t x => { t with ConfigSource := x }))) (CreatableTopicConfigs19.first 3) (CreatableTopicConfigs19.first 4) (fun r y => r = CreatableTopicConfigs19.first 3 y))
    |>.andThen (.onlyIf (.field Longer.bool (fun _ => rfl) (fun _ _ => rfl) (fun _ _ => rfl) (fun _ => rfl)) (fun _ => rfl) : Parts (KDec.onlyIf (version ≥ 5) (KDec.field Dec.bool false (fun t x => { t with IsSensitive := x }))) (CreatableTopicConfigs19.first 4) (CreatableTopicConfigs19.first 5) (fun r y => r = CreatableTopicConfigs19.first 4 y))
theorem CreatableTopicConfigs19.filled (version : Int16) : FilledStep 7 32775 (CreatableTopicConfigs19.decode version) :=
  ((FilledStep.onlyIf (FilledStep.field .string))
    |>.andThen (FilledStep.onlyIf (FilledStep.field .string))
    |>.andThen (FilledStep.onlyIf (FilledStep.field .bool))
    |>.andThen (FilledStep.onlyIf (FilledStep.field .int8))
    |>.andThen (FilledStep.onlyIf (FilledStep.field .bool))).mono (by decide) (by decide)
theorem CreatableTopicConfigs19.part_of (r y : CreatableTopicConfigs19) (h : (((((r = CreatableTopicConfigs19.first 0 y) ∨ (r = CreatableTopicConfigs19.first 1 y)) ∨ (r = CreatableTopicConfigs19.first 2 y)) ∨ (r = CreatableTopicConfigs19.first 3 y)) ∨ (r = CreatableTopicConfigs19.first 4 y))) : CreatableTopicConfigs19.Part r y :=
  match h with
    | (.inl (.inl (.inl (.inl h)))) => ⟨0, by decide, h⟩
    | (.inl (.inl (.inl (.inr h)))) => ⟨1, by decide, h⟩
    | (.inl (.inl (.inr h))) => ⟨2, by decide, h⟩
    | (.inl (.inr h)) => ⟨3, by decide, h⟩
    | (.inr h) => ⟨4, by decide, h⟩
theorem CreatableTopicConfigs19.keeps_holds : CreatableTopicConfigs19.keeps.Holds CreatableTopicConfigs19.layout :=
  KeptMsg.holds CreatableTopicConfigs19.lawful CreatableTopicConfigs19.sameK (stop := fun v t => CreatableTopicConfigs19.ends v t 4) (c := fun v t => CreatableTopicConfigs19.cutAt v t 0) (fun _ _ _ => rfl) CreatableTopicConfigs19.cutsK (c0 := CreatableTopicConfigs19.first 0) rfl CreatableTopicConfigs19.partsK CreatableTopicConfigs19.part_of CreatableTopicConfigs19.filled (by decide) (by decide)

/-- message/messages.gen.go:5696-5746 `CreatableTopicResult19.Decode`, with the receiver kept -/
def CreatableTopicResult19.decodeK (version : Int16) : KDec CreatableTopicResult19 :=
    KDec.field Dec.string [] (fun t x => { t with Name := x }) ;|>
    KDec.field Dec.int16 0 (fun t x => { t with ErrorCode := x }) ;|>
    KDec.onlyIf (version ≥ 1) (KDec.field Dec.string [] (fun t x => { t with ErrorMessage := x })) ;|>
    KDec.onlyIf (version ≥ 5) (KDec.field Dec.int16 0 (fun t x => { t with TopicConfigErrorCode := x })) ;|>
    KDec.onlyIf (version ≥ 5) (KDec.field Dec.int32 0 (fun t x => { t with NumPartitions := x })) ;|>
    KDec.onlyIf (version ≥ 5) (KDec.field Dec.int16 0 (fun t x => { t with ReplicationFactor := x })) ;|>
    KDec.onlyIf (version ≥ 5) (KDec.fieldStructs (CreatableTopicConfigs19.decodeK version {}) {} (fun t x => { t with Configs := x }))

/-- Where the fields of `CreatableTopicResult19` end. -/
def CreatableTopicResult19.ends (version : Int16) (t : CreatableTopicResult19) : Nat → Nat :=
  Cut.ends 0 [Wire.string t.Name,
    Wire.int16 t.ErrorCode,
    Wire.when (version ≥ 1) (Wire.string t.ErrorMessage),
    Wire.when (version ≥ 5) (Wire.int16 t.TopicConfigErrorCode),
    Wire.when (version ≥ 5) (Wire.int32 t.NumPartitions),
    Wire.when (version ≥ 5) (Wire.int16 t.ReplicationFactor),
    Wire.when (version ≥ 5) (Wire.array (CreatableTopicConfigs19.wire version) t.Configs)]

/-- What is left of `t` if only its first `n` bytes are there. -/
def CreatableTopicResult19.cut (version : Int16) (n : Nat) (t : CreatableTopicResult19) : CreatableTopicResult19 :=
  { Name := Cut.field n (t.ends version 0) t.Name [],
    ErrorCode := Cut.field n (t.ends version 1) t.ErrorCode 0,
    ErrorMessage := Cut.gate (version ≥ 1) (Cut.field n (t.ends version 2) t.ErrorMessage []) [],
    TopicConfigErrorCode := Cut.gate (version ≥ 5) (Cut.field n (t.ends version 3) t.TopicConfigErrorCode 0) 0,
    NumPartitions := Cut.gate (version ≥ 5) (Cut.field n (t.ends version 4) t.NumPartitions 0) 0,
    ReplicationFactor := Cut.gate (version ≥ 5) (Cut.field n (t.ends version 5) t.ReplicationFactor 0) 0,
    Configs := Cut.gate (version ≥ 5) (Cut.array n (t.ends version 5) (CreatableTopicConfigs19.wire version) (fun x => x.seen version {}) {} t.Configs) none }

/-- The same after the first `k` statements of `Decode`. -/
def CreatableTopicResult19.cutAt (version : Int16) (t : CreatableTopicResult19) (k n : Nat) : CreatableTopicResult19 :=
  { Name := upto k 0 (Cut.field n (t.ends version 0) t.Name []) [],
    ErrorCode := upto k 1 (Cut.field n (t.ends version 1) t.ErrorCode 0) 0,
    ErrorMessage := upto k 2 (Cut.gate (version ≥ 1) (Cut.field n (t.ends version 2) t.ErrorMessage []) []) [],
    TopicConfigErrorCode := upto k 3 (Cut.gate (version ≥ 5) (Cut.field n (t.ends version 3) t.TopicConfigErrorCode 0) 0) 0,
    NumPartitions := upto k 4 (Cut.gate (version ≥ 5) (Cut.field n (t.ends version 4) t.NumPartitions 0) 0) 0,
    ReplicationFactor := upto k 5 (Cut.gate (version ≥ 5) (Cut.field n (t.ends version 5) t.ReplicationFactor 0) 0) 0,
    Configs := upto k 6 (Cut.gate (version ≥ 5) (Cut.array n (t.ends version 5) (CreatableTopicConfigs19.wire version) (fun x => x.seen version {}) {} t.Configs) none) none }

/-- The first `k` fields of `y`, and zeros. -/
def CreatableTopicResult19.first (k : Nat) (y : CreatableTopicResult19) : CreatableTopicResult19 :=
  { Name := upto k 0 y.Name [],
    ErrorCode := upto k 1 y.ErrorCode 0,
    ErrorMessage := upto k 2 y.ErrorMessage [],
    TopicConfigErrorCode := upto k 3 y.TopicConfigErrorCode 0,
    NumPartitions := upto k 4 y.NumPartitions 0,
    ReplicationFactor := upto k 5 y.ReplicationFactor 0,
    Configs := upto k 6 y.Configs none }

/-- `r` is a beginning of `y`, and zeros. -/
def CreatableTopicResult19.Part (r y : CreatableTopicResult19) : Prop :=
  (∃ k, k < 7 ∧ r = y.first k) ∨
    Cut.begun {} (fun t => t.Configs) (fun t x => { t with Configs := x }) (CreatableTopicResult19.first 6) r y

/-- `CreatableTopicResult19` with its receiver kept. -/
def CreatableTopicResult19.keeps : KeptMsg CreatableTopicResult19.type := { decode := CreatableTopicResult19.decodeK, cut := CreatableTopicResult19.cut, Part := CreatableTopicResult19.Part }

theorem CreatableTopicResult19.sameK (version : Int16) : KStep (CreatableTopicResult19.decodeK version) (CreatableTopicResult19.decode version) :=
  (KStep.field)
    |>.andThen (KStep.field)
    |>.andThen (KStep.onlyIf (KStep.field))
    |>.andThen (KStep.onlyIf (KStep.field))
    |>.andThen (KStep.onlyIf (KStep.field))
    |>.andThen (KStep.onlyIf (KStep.field))
    |>.andThen (KStep.onlyIf (KStep.structs (fun _ => rfl) (CreatableTopicConfigs19.sameK version {})))
theorem CreatableTopicResult19.cutsK (version : Int16) (t : CreatableTopicResult19) (h : t.Fits version) :
    Cuts (CreatableTopicResult19.decodeK version) 0 (CreatableTopicResult19.wire version t) (CreatableTopicResult19.ends version t 6) (CreatableTopicResult19.cutAt version t 0) (CreatableTopicResult19.cutAt version t 7) :=
  (.field (reads_string h.Name) (fun _ => rfl) (fun _ => rfl) : Cuts _ 0 _ (CreatableTopicResult19.ends version t 0) (CreatableTopicResult19.cutAt version t 0) (CreatableTopicResult19.cutAt version t 1))
    |>.andThen (.field (reads_int16 t.ErrorCode) (fun _ => rfl) (fun _ => rfl) : Cuts _ (CreatableTopicResult19.ends version t 0) _ (CreatableTopicResult19.ends version t 1) (CreatableTopicResult19.cutAt version t 1) (CreatableTopicResult19.cutAt version t 2))
    |>.andThen (.optField (fun hc => reads_string (h.ErrorMessage hc)) (fun _ => rfl) (fun _ => rfl) : Cuts _ (CreatableTopicResult19.ends version t 1) _ (CreatableTopicResult19.ends version t 2) (CreatableTopicResult19.cutAt version t 2) (CreatableTopicResult19.cutAt version t 3))
    |>.andThen (.optField (fun _ => reads_int16 t.TopicConfigErrorCode) (fun _ => rfl) (fun _ => rfl) : Cuts _ (CreatableTopicResult19.ends version t 2) _ (CreatableTopicResult19.ends version t 3) (CreatableTopicResult19.cutAt version t 3) (CreatableTopicResult19.cutAt version t 4))
    |>.andThen (.optField (fun _ => reads_int32 t.NumPartitions) (fun _ => rfl) (fun _ => rfl) : Cuts _ (CreatableTopicResult19.ends version t 3) _ (CreatableTopicResult19.ends version t 4) (CreatableTopicResult19.cutAt version t 4) (CreatableTopicResult19.cutAt version t 5))
    |>.andThen (.optField (fun _ => reads_int16 t.ReplicationFactor) (fun _ => rfl) (fun _ => rfl) : Cuts _ (CreatableTopicResult19.ends version t 4) _ (CreatableTopicResult19.ends version t 5) (CreatableTopicResult19.cutAt version t 5) (CreatableTopicResult19.cutAt version t 6))
    |>.andThen (.optStructs (CreatableTopicConfigs19.sameK version {}) (fun x hx => CreatableTopicConfigs19.reads version x hx {}) h.Configs (fun _ => rfl) (fun _ => rfl) : Cuts _ (CreatableTopicResult19.ends version t 5) _ (CreatableTopicResult19.ends version t 6) (CreatableTopicResult19.cutAt version t 6) (CreatableTopicResult19.cutAt version t 7))
theorem CreatableTopicResult19.partsK (version : Int16) : Parts (CreatableTopicResult19.decodeK version) (CreatableTopicResult19.first 0) (CreatableTopicResult19.first 7) (fun r y => (((((((r = CreatableTopicResult19.first 0 y) ∨ (r = CreatableTopicResult19.first 1 y)) ∨ (r = CreatableTopicResult19.first 2 y)) ∨ (r = CreatableTopicResult19.first 3 y)) ∨ (r = CreatableTopicResult19.first 4 y)) ∨ (r = CreatableTopicResult19.first 5 y)) ∨ (r = CreatableTopicResult19.first 6 y ∨ Cut.begun {} (fun t => t.Configs) (fun t x => { t with Configs := x }) (CreatableTopicResult19.first 6) r y))) :=
  (.field Longer.string (fun _ => rfl) (fun _ _ => rfl) (fun _ _ => rfl) (fun _ => rfl) : Parts (KDec.field Dec.string [] (fun t x => { t with Name := x })) (CreatableTopicResult19.first 0) (CreatableTopicResult19.first 1) (fun r y => r = CreatableTopicResult19.first 0 y))
    |>.andThen (.field Longer.int16 (fun _ => rfl) (fun _ _ => rfl) (fun _ _ => rfl) (fun _ => rfl) : Parts (KDec.field Dec.int16 0 (fun t x => { t with ErrorCode := x })) (CreatableTopicResult19.first 1) (CreatableTopicResult19.first 2) (fun r y => r = CreatableTopicResult19.first 1 y))
    |>.andThen (.onlyIf (.field Longer.string (fun _ => rfl) (fun _ _ => rfl) (fun _ _ => rfl) (fun _ => rfl)) (fun _ => rfl) : Parts (KDec.onlyIf (version ≥ 1) (KDec.field Dec.string [] (fun t x => { t with ErrorMessage := x }))) (CreatableTopicResult19.first 2) (CreatableTopicResult19.first 3) (fun r y => r = CreatableTopicResult19.first 2 y))
    |>.andThen (.onlyIf (.field Longer.int16 (fun _ => rfl) (fun _ _ => rfl) (fun _ _ => rfl) (fun _ => rfl)) (fun _ => rfl) : Parts (KDec.onlyIf (version ≥ 5) (KDec.field Dec.int16 0 (fun t x => { t with TopicConfigErrorCode := x }))) (CreatableTopicResult19.first 3) (CreatableTopicResult19.first 4) (fun r y => r = CreatableTopicResult19.first 3 y))
    |>.andThen (.onlyIf (.field Longer.int32 (fun _ => rfl) (fun _ _ => rfl) (fun _ _ => rfl) (fun _ => rfl)) (fun _ => rfl) : Parts (KDec.onlyIf (version ≥ 5) (KDec.field Dec.int32 0 (fun t x => { t with NumPartitions := x }))) (CreatableTopicResult19.first 4) (CreatableTopicResult19.first 5) (fun r y => r = CreatableTopicResult19.first 4 y))
    |>.andThen (.onlyIf (.field Longer.int16 (fun _ => rfl) (fun _ _ => rfl) (fun _ _ => rfl) (fun _ => rfl)) (fun _ => rfl) : Parts (KDec.onlyIf (version ≥ 5) (KDec.field Dec.int16 0 (fun t x => { t with ReplicationFactor := x }))) (CreatableTopicResult19.first 5) (CreatableTopicResult19.first 6) (fun r y => r = CreatableTopicResult19.first 5 y))
    |>.andThen (.onlyIf (.structs (get := fun (t : CreatableTopicResult19) => t.Configs) ((CreatableTopicConfigs19.partsK version).longer {}) (fun _ => rfl) (fun _ => rfl) (fun _ _ => rfl) (fun _ _ => rfl) (fun _ _ => rfl) (fun _ => rfl) (fun _ => rfl)) (fun _ => rfl) : Parts (KDec.onlyIf (version ≥ 5) (KDec.fieldStructs (CreatableTopicConfigs19.decodeK version {}) {} (fun t x => { t with Configs := x }))) (CreatableTopicResult19.first 6) (CreatableTopicResult19.first 7) (fun r y => r = CreatableTopicResult19.first 6 y ∨ Cut.begun {} (fun t => t.Configs) (fun t x => { t with Configs := x }) (CreatableTopicResult19.first 6) r y))
theorem CreatableTopicResult19.filled (version : Int16) : FilledStep 18 15032418315 (CreatableTopicResult19.decode version) :=
  ((FilledStep.field .string)
    |>.andThen (FilledStep.field .int16)
    |>.andThen (FilledStep.onlyIf (FilledStep.field .string))
    |>.andThen (FilledStep.onlyIf (FilledStep.field .int16))
    |>.andThen (FilledStep.onlyIf (FilledStep.field .int32))
    |>.andThen (FilledStep.onlyIf (FilledStep.field .int16))
    |>.andThen (FilledStep.onlyIf (FilledStep.structs (CreatableTopicConfigs19.filled version {})))).mono (by decide) (by decide)
theorem CreatableTopicResult19.part_of (r y : CreatableTopicResult19) (h : (((((((r = CreatableTopicResult19.first 0 y) ∨ (r = CreatableTopicResult19.first 1 y)) ∨ (r = CreatableTopicResult19.first 2 y)) ∨ (r = CreatableTopicResult19.first 3 y)) ∨ (r = CreatableTopicResult19.first 4 y)) ∨ (r = CreatableTopicResult19.first 5 y)) ∨ (r = CreatableTopicResult19.first 6 y ∨ Cut.begun {} (fun t => t.Configs) (fun t x => { t with Configs := x }) (CreatableTopicResult19.first 6) r y))) : CreatableTopicResult19.Part r y :=
  match h with
    | (.inl (.inl (.inl (.inl (.inl (.inl h)))))) => .inl ⟨0, by decide, h⟩
    | (.inl (.inl (.inl (.inl (.inl (.inr h)))))) => .inl ⟨1, by decide, h⟩
    | (.inl (.inl (.inl (.inl (.inr h))))) => .inl ⟨2, by decide, h⟩
    | (.inl (.inl (.inl (.inr h)))) => .inl ⟨3, by decide, h⟩
    | (.inl (.inl (.inr h))) => .inl ⟨4, by decide, h⟩
    | (.inl (.inr h)) => .inl ⟨5, by decide, h⟩
    | (.inr (.inl h)) => .inl ⟨6, by decide, h⟩
    | (.inr (.inr h)) => (.inr h)
theorem CreatableTopicResult19.keeps_holds : CreatableTopicResult19.keeps.Holds CreatableTopicResult19.layout :=
  KeptMsg.holds CreatableTopicResult19.lawful CreatableTopicResult19.sameK (stop := fun v t => CreatableTopicResult19.ends v t 6) (c := fun v t => CreatableTopicResult19.cutAt v t 0) (fun _ _ _ => rfl) CreatableTopicResult19.cutsK (c0 := CreatableTopicResult19.first 0) rfl CreatableTopicResult19.partsK CreatableTopicResult19.part_of CreatableTopicResult19.filled (by decide) (by decide)

/-- message/messages.gen.go:5609-5631 `CreateTopicsResponse.Decode`, with the receiver kept -/
def CreateTopicsResponse.decodeK (version : Int16) : KDec CreateTopicsResponse :=
    KDec.onlyIf (version ≥ 2) (KDec.field Dec.int32 0 (fun t x => { t with ThrottleTimeMs := x })) ;|>
    KDec.fieldStructs (CreatableTopicResult19.decodeK version {}) {} (fun t x => { t with Topics := x })

/-- Where the fields of `CreateTopicsResponse` end. -/
def CreateTopicsResponse.ends (version : Int16) (t : CreateTopicsResponse) : Nat → Nat :=
  Cut.ends 0 [Wire.when (version ≥ 2) (Wire.int32 t.ThrottleTimeMs),
    Wire.array (CreatableTopicResult19.wire version) t.Topics]

/-- What is left of `t` if only its first `n` bytes are there. -/
def CreateTopicsResponse.cut (version : Int16) (n : Nat) (t : CreateTopicsResponse) : CreateTopicsResponse :=
  { ThrottleTimeMs := Cut.gate (version ≥ 2) (Cut.field n (t.ends version 0) t.ThrottleTimeMs 0) 0,
    Topics := Cut.array n (t.ends version 0) (CreatableTopicResult19.wire version) (fun x => x.seen version {}) {} t.Topics }

/-- The same after the first `k` statements of `Decode`. -/
def CreateTopicsResponse.cutAt (version : Int16) (t : CreateTopicsResponse) (k n : Nat) : CreateTopicsResponse :=
  { ThrottleTimeMs := upto k 0 (Cut.gate (version ≥ 2) (Cut.field n (t.ends version 0) t.ThrottleTimeMs 0) 0) 0,
    Topics := upto k 1 (Cut.array n (t.ends version 0) (CreatableTopicResult19.wire version) (fun x => x.seen version {}) {} t.Topics) none }

/-- The first `k` fields of `y`, and zeros. -/
def CreateTopicsResponse.first (k : Nat) (y : CreateTopicsResponse) : CreateTopicsResponse :=
  { ThrottleTimeMs := upto k 0 y.ThrottleTimeMs 0,
    Topics := upto k 1 y.Topics none }

/-- `r` is a beginning of `y`, and zeros. -/
def CreateTopicsResponse.Part (r y : CreateTopicsResponse) : Prop :=
  (∃ k, k < 2 ∧ r = y.first k) ∨
    Cut.begun {} (fun t => t.Topics) (fun t x => { t with Topics := x }) (CreateTopicsResponse.first 1) r y

/-- `CreateTopicsResponse` with its receiver kept. -/
def CreateTopicsResponse.keeps : KeptMsg CreateTopicsResponse.type := { decode := CreateTopicsResponse.decodeK, cut := CreateTopicsResponse.cut, Part := CreateTopicsResponse.Part }

theorem CreateTopicsResponse.sameK (version : Int16) : KStep (CreateTopicsResponse.decodeK version) (CreateTopicsResponse.decode version) :=
  (KStep.onlyIf (KStep.field))
    |>.andThen (KStep.structs (fun _ => rfl) (CreatableTopicResult19.sameK version {}))
theorem CreateTopicsResponse.cutsK (version : Int16) (t : CreateTopicsResponse) (h : t.Fits version) :
    Cuts (CreateTopicsResponse.decodeK version) 0 (CreateTopicsResponse.wire version t) (CreateTopicsResponse.ends version t 1) (CreateTopicsResponse.cutAt version t 0) (CreateTopicsResponse.cutAt version t 2) :=
  (.optField (fun _ => reads_int32 t.ThrottleTimeMs) (fun _ => rfl) (fun _ => rfl) : Cuts _ 0 _ (CreateTopicsResponse.ends version t 0) (CreateTopicsResponse.cutAt version t 0) (CreateTopicsResponse.cutAt version t 1))
    |>.andThen (.structs (CreatableTopicResult19.sameK version {}) (fun x hx => CreatableTopicResult19.reads version x hx {}) h.Topics (fun _ => rfl) (fun _ => rfl) : Cuts _ (CreateTopicsResponse.ends version t 0) _ (CreateTopicsResponse.ends version t 1) (CreateTopicsResponse.cutAt version t 1) (CreateTopicsResponse.cutAt version t 2))
theorem CreateTopicsResponse.partsK (version : Int16) : Parts (CreateTopicsResponse.decodeK version) (CreateTopicsResponse.first 0) (CreateTopicsResponse.first 2) (fun r y => ((r = CreateTopicsResponse.first 0 y) ∨ (r = CreateTopicsResponse.first 1 y ∨ Cut.begun {} (fun t => t.Topics) (fun t x => { t with Topics := x }) (CreateTopicsResponse.first 1) r y))) :=
  (.onlyIf (.field Longer.int32 (fun _ => rfl) (fun _ _ => rfl) (fun _ _ => rfl) (fun _ => rfl)) (fun _ => rfl) : Parts (KDec.onlyIf (version ≥ 2) (KDec.field Dec.int32 0 (fun t x => { t with ThrottleTimeMs := x }))) (CreateTopicsResponse.first 0) (CreateTopicsResponse.first 1) (fun r y => r = CreateTopicsResponse.first 0 y))
    |>.andThen (.structs (get := fun (t : CreateTopicsResponse) => t.Topics) ((CreatableTopicResult19.partsK version).longer {}) (fun _ => rfl) (fun _ => rfl) (fun _ _ => rfl) (fun _ _ => rfl) (fun _ _ => rfl) (fun _ => rfl) (fun _ => rfl) : Parts (KDec.fieldStructs (CreatableTopicResult19.decodeK version {}) {} (fun t x => { t with Topics := x })) (CreateTopicsResponse.first 1) (CreateTopicsResponse.first 2) (fun r y => r = CreateTopicsResponse.first 1 y ∨ Cut.begun {} (fun t => t.Topics) (fun t x => { t with Topics := x }) (CreateTopicsResponse.first 1) r y))
theorem CreateTopicsResponse.filled (version : Int16) : FilledStep 8 53687123983 (CreateTopicsResponse.decode version) :=
  ((FilledStep.onlyIf (FilledStep.field .int32))
    |>.andThen (FilledStep.structs (CreatableTopicResult19.filled version {}))).mono (by decide) (by decide)
theorem CreateTopicsResponse.part_of (r y : CreateTopicsResponse) (h : ((r = CreateTopicsResponse.first 0 y) ∨ (r = CreateTopicsResponse.first 1 y ∨ Cut.begun {} (fun t => t.Topics) (fun t x => { t with Topics := x }) (CreateTopicsResponse.first 1) r y))) : CreateTopicsResponse.Part r y :=
  match h with
    | (.inl h) => .inl ⟨0, by decide, h⟩
    | (.inr (.inl h)) => .inl ⟨1, by decide, h⟩
    | (.inr (.inr h)) => (.inr h)
theorem CreateTopicsResponse.keeps_holds : CreateTopicsResponse.keeps.Holds CreateTopicsResponse.layout :=
  KeptMsg.holds CreateTopicsResponse.lawful CreateTopicsResponse.sameK (stop := fun v t => CreateTopicsResponse.ends v t 1) (c := fun v t => CreateTopicsResponse.cutAt v t 0) (fun _ _ _ => rfl) CreateTopicsResponse.cutsK (c0 := CreateTopicsResponse.first 0) rfl CreateTopicsResponse.partsK CreateTopicsResponse.part_of CreateTopicsResponse.filled (by decide) (by decide)

/-- The structures of the CreateTopics messages. -/
def keptCreateTopics : List (Σ (M : MsgType) (_ : Layout M), KeptMsg M) :=
  [⟨CreateTopicsRequest.type, CreateTopicsRequest.layout, CreateTopicsRequest.keeps⟩,
   ⟨CreatableTopic19.type, CreatableTopic19.layout, CreatableTopic19.keeps⟩,
   ⟨CreatableReplicaAssignment19.type, CreatableReplicaAssignment19.layout, CreatableReplicaAssignment19.keeps⟩,
   ⟨CreateableTopicConfig19.type, CreateableTopicConfig19.layout, CreateableTopicConfig19.keeps⟩,
   ⟨CreateTopicsResponse.type, CreateTopicsResponse.layout, CreateTopicsResponse.keeps⟩,
   ⟨CreatableTopicResult19.type, CreatableTopicResult19.layout, CreatableTopicResult19.keeps⟩,
   ⟨CreatableTopicConfigs19.type, CreatableTopicConfigs19.layout, CreatableTopicConfigs19.keeps⟩]
theorem keptCreateTopics_holds : ∀ p ∈ keptCreateTopics, p.2.2.Holds p.2.1 := by
  unfold keptCreateTopics
  simp only [List.forall_mem_cons]
  exact ⟨CreateTopicsRequest.keeps_holds, CreatableTopic19.keeps_holds, CreatableReplicaAssignment19.keeps_holds, CreateableTopicConfig19.keeps_holds, CreateTopicsResponse.keeps_holds, CreatableTopicResult19.keeps_holds, CreatableTopicConfigs19.keeps_holds, fun _ h => absurd h (by simp)⟩

end Kafka.Msg
