import Verif.Message.KeptLemmas
import Verif.Gen.Proof.Metadata
/-!
Generated by tools/gen_messages.py: what is in the Metadata messages after an error.
-/
set_option linter.unusedVariables false
namespace Kafka.Msg

/-- message/messages.gen.go:1599-1606 `MetadataRequestTopic3.Decode`, with the receiver kept -/
def MetadataRequestTopic3.decodeK (_version : Int16) : KDec MetadataRequestTopic3 :=
    KDec.field Dec.string [] (fun t x => { t with Name := x })

/-- Where the fields of `MetadataRequestTopic3` end. -/
def MetadataRequestTopic3.ends (_version : Int16) (t : MetadataRequestTopic3) : Nat → Nat :=
  Cut.ends 0 [Wire.string t.Name]

/-- What is left of `t` if only its first `n` bytes are there. -/
def MetadataRequestTopic3.cut (version : Int16) (n : Nat) (t : MetadataRequestTopic3) : MetadataRequestTopic3 :=
  { Name := Cut.field n (t.ends version 0) t.Name [] }

/-- The same after the first `k` statements of `Decode`. -/
def MetadataRequestTopic3.cutAt (version : Int16) (t : MetadataRequestTopic3) (k n : Nat) : MetadataRequestTopic3 :=
  { Name := upto k 0 (Cut.field n (t.ends version 0) t.Name []) [] }

/-- The first `k` fields of `y`, and zeros. -/
def MetadataRequestTopic3.first (k : Nat) (y : MetadataRequestTopic3) : MetadataRequestTopic3 :=
  { Name := upto k 0 y.Name [] }

/-- `r` is a beginning of `y`, and zeros. -/
def MetadataRequestTopic3.Part (r y : MetadataRequestTopic3) : Prop :=
  (∃ k, k < 1 ∧ r = y.first k)

/-- `MetadataRequestTopic3` with its receiver kept. -/
def MetadataRequestTopic3.keeps : KeptMsg MetadataRequestTopic3.type := { decode := MetadataRequestTopic3.decodeK, cut := MetadataRequestTopic3.cut, Part := MetadataRequestTopic3.Part }

theorem MetadataRequestTopic3.sameK (version : Int16) : KStep (MetadataRequestTopic3.decodeK version) (MetadataRequestTopic3.decode version) :=
  KStep.field
theorem MetadataRequestTopic3.cutsK (version : Int16) (t : MetadataRequestTopic3) (h : t.Fits version) :
    Cuts (MetadataRequestTopic3.decodeK version) 0 (MetadataRequestTopic3.wire version t) (MetadataRequestTopic3.ends version t 0) (MetadataRequestTopic3.cutAt version t 0) (MetadataRequestTopic3.cutAt version t 1) :=
  (.field (reads_string h.Name) (fun _ => rfl) (fun _ => rfl) : Cuts _ 0 _ (MetadataRequestTopic3.ends version t 0) (MetadataRequestTopic3.cutAt version t 0) (MetadataRequestTopic3.cutAt version t 1))
theorem MetadataRequestTopic3.partsK (version : Int16) : Parts (MetadataRequestTopic3.decodeK version) (MetadataRequestTopic3.first 0) (MetadataRequestTopic3.first 1) (fun r y => (r = MetadataRequestTopic3.first 0 y)) :=
  (.field Longer.string (fun _ => rfl) (fun _ _ => rfl) (fun _ _ => rfl) (fun _ => rfl) : Parts (KDec.field Dec.string [] (fun t x => { t with Name := x })) (MetadataRequestTopic3.first 0) (MetadataRequestTopic3.first 1) (fun r y => r = MetadataRequestTopic3.first 0 y))
theorem MetadataRequestTopic3.filled (version : Int16) : FilledStep 2 32770 (MetadataRequestTopic3.decode version) :=
  (FilledStep.field .string).mono (by decide) (by decide)
theorem MetadataRequestTopic3.part_of (r y : MetadataRequestTopic3) (h : (r = MetadataRequestTopic3.first 0 y)) : MetadataRequestTopic3.Part r y :=
  match h with
    | h => ⟨0, by decide, h⟩
theorem MetadataRequestTopic3.keeps_holds : MetadataRequestTopic3.keeps.Holds MetadataRequestTopic3.layout :=
  KeptMsg.holds MetadataRequestTopic3.lawful MetadataRequestTopic3.sameK (stop := fun v t => MetadataRequestTopic3.ends v t 0) (c := fun v t => MetadataRequestTopic3.cutAt v t 0) (fun _ _ _ => rfl) MetadataRequestTopic3.cutsK (c0 := MetadataRequestTopic3.first 0) rfl MetadataRequestTopic3.partsK MetadataRequestTopic3.part_of MetadataRequestTopic3.filled (by decide) (by decide)

/-- message/messages.gen.go:1546-1580 `MetadataRequest.Decode`, with the receiver kept -/
def MetadataRequest.decodeK (version : Int16) : KDec MetadataRequest :=
    KDec.fieldStructs (MetadataRequestTopic3.decodeK version {}) {} (fun t x => { t with Topics := x }) ;|>
    KDec.onlyIf (version ≥ 4) (KDec.field Dec.bool false (fun t x => { t with AllowAutoTopicCreation := x })) ;|>
    KDec.onlyIf (version ≥ 8) (KDec.field Dec.bool false (fun t x => { t with IncludeClusterAuthorizedOperations := x })) ;|>
    KDec.onlyIf (version ≥ 8) (KDec.field Dec.bool false (fun t x => { t with IncludeTopicAuthorizedOperations := x }))

/-- Where the fields of `MetadataRequest` end. -/
def MetadataRequest.ends (version : Int16) (t : MetadataRequest) : Nat → Nat :=
  Cut.ends 0 [Wire.array (MetadataRequestTopic3.wire version) t.Topics,
    Wire.when (version ≥ 4) (Wire.bool t.AllowAutoTopicCreation),
    Wire.when (version ≥ 8) (Wire.bool t.IncludeClusterAuthorizedOperations),
    Wire.when (version ≥ 8) (Wire.bool t.IncludeTopicAuthorizedOperations)]

/-- What is left of `t` if only its first `n` bytes are there. -/
def MetadataRequest.cut (version : Int16) (n : Nat) (t : MetadataRequest) : MetadataRequest :=
  { Topics := Cut.array n 0 (MetadataRequestTopic3.wire version) (fun x => x.seen version {}) {} t.Topics,
    AllowAutoTopicCreation := Cut.gate (version ≥ 4) (Cut.field n (t.ends version 1) t.AllowAutoTopicCreation false) false,
    IncludeClusterAuthorizedOperations := Cut.gate (version ≥ 8) (Cut.field n (t.ends version 2) t.IncludeClusterAuthorizedOperations false) false,
    IncludeTopicAuthorizedOperations := Cut.gate (version ≥ 8) (Cut.field n (t.ends version 3) t.IncludeTopicAuthorizedOperations false) false }

/-- The same after the first `k` statements of `Decode`. -/
def MetadataRequest.cutAt (version : Int16) (t : MetadataRequest) (k n : Nat) : MetadataRequest :=
  { Topics := upto k 0 (Cut.array n 0 (MetadataRequestTopic3.wire version) (fun x => x.seen version {}) {} t.Topics) none,
    AllowAutoTopicCreation := upto k 1 (Cut.gate (version ≥ 4) (Cut.field n (t.ends version 1) t.AllowAutoTopicCreation false) false) false,
    IncludeClusterAuthorizedOperations := upto k 2 (Cut.gate (version ≥ 8) (Cut.field n (t.ends version 2) t.IncludeClusterAuthorizedOperations false) false) false,
    IncludeTopicAuthorizedOperations := upto k 3 (Cut.gate (version ≥ 8) (Cut.field n (t.ends version 3) t.IncludeTopicAuthorizedOperations false) false) false }

/-- The first `k` fields of `y`, and zeros. -/
def MetadataRequest.first (k : Nat) (y : MetadataRequest) : MetadataRequest :=
  { Topics := upto k 0 y.Topics none,
    AllowAutoTopicCreation := upto k 1 y.AllowAutoTopicCreation false,
    IncludeClusterAuthorizedOperations := upto k 2 y.IncludeClusterAuthorizedOperations false,
    IncludeTopicAuthorizedOperations := upto k 3 y.IncludeTopicAuthorizedOperations false }

/-- `r` is a beginning of `y`, and zeros. -/
def MetadataRequest.Part (r y : MetadataRequest) : Prop :=
  (∃ k, k < 4 ∧ r = y.first k) ∨
    Cut.begun {} (fun t => t.Topics) (fun t x => { t with Topics := x }) (MetadataRequest.first 0) r y

/-- `MetadataRequest` with its receiver kept. -/
def MetadataRequest.keeps : KeptMsg MetadataRequest.type := { decode := MetadataRequest.decodeK, cut := MetadataRequest.cut, Part := MetadataRequest.Part }

theorem MetadataRequest.sameK (version : Int16) : KStep (MetadataRequest.decodeK version) (MetadataRequest.decode version) :=
  (KStep.structs (fun _ => rfl) (MetadataRequestTopic3.sameK version {}))
    |>.andThen (KStep.onlyIf (KStep.field))
    |>.andThen (KStep.onlyIf (KStep.field))
    |>.andThen (KStep.onlyIf (KStep.field))
theorem MetadataRequest.cutsK (version : Int16) (t : MetadataRequest) (h : t.Fits version) :
    Cuts (MetadataRequest.decodeK version) 0 (MetadataRequest.wire version t) (MetadataRequest.ends version t 3) (MetadataRequest.cutAt version t 0) (MetadataRequest.cutAt version t 4) :=
  (.structs (MetadataRequestTopic3.sameK version {}) (fun x hx => MetadataRequestTopic3.reads version x hx {}) h.Topics (fun _ => rfl) (fun _ => rfl) : Cuts _ 0 _ (MetadataRequest.ends version t 0) (MetadataRequest.cutAt version t 0) (MetadataRequest.cutAt version t 1))
    |>.andThen (.optField (fun _ => reads_bool t.AllowAutoTopicCreation) (fun _ => rfl) (fun _ => rfl) : Cuts _ (MetadataRequest.ends version t 0) _ (MetadataRequest.ends version t 1) (MetadataRequest.cutAt version t 1) (MetadataRequest.cutAt version t 2))
    |>.andThen (.optField (fun _ => reads_bool t.IncludeClusterAuthorizedOperations) (fun _ => rfl) (fun _ => rfl) : Cuts _ (MetadataRequest.ends version t 1) _ (MetadataRequest.ends version t 2) (MetadataRequest.cutAt version t 2) (MetadataRequest.cutAt version t 3))
    |>.andThen (.optField (fun _ => reads_bool t.IncludeTopicAuthorizedOperations) (fun _ => rfl) (fun _ => rfl) : Cuts _ (MetadataRequest.ends version t 2) _ (MetadataRequest.ends version t 3) (MetadataRequest.cutAt version t 3) (MetadataRequest.cutAt version t 4))
theorem MetadataRequest.partsK (version : Int16) : Parts (MetadataRequest.decodeK version) (MetadataRequest.first 0) (MetadataRequest.first 4) (fun r y => ((((r = MetadataRequest.first 0 y ∨ Cut.begun {} (fun t => t.Topics) (fun t x => { t with Topics := x }) (MetadataRequest.first 0) r y) ∨ (r = MetadataRequest.first 1 y)) ∨ (r = MetadataRequest.first 2 y)) ∨ (r = MetadataRequest.first 3 y))) :=
  (.structs (get := fun (t : MetadataRequest) => t.Topics) ((MetadataRequestTopic3.partsK version).longer {}) (fun _ => rfl) (fun _ => rfl) (fun _ _ => rfl) (fun _ _ => rfl) (fun _ _ => rfl) (fun _ => rfl) (fun _ => rfl) : Parts (KDec.fieldStructs (MetadataRequestTopic3.decodeK version {}) {} (fun t x => { t with Topics := x })) (MetadataRequest.first 0) (MetadataRequest.first 1) (fun r y => r = MetadataRequest.first 0 y ∨ Cut.begun {} (fun t => t.Topics) (fun t x => { t with Topics := x }) (MetadataRequest.first 0) r y))
    |>.andThen (.onlyIf (.field Longer.bool (fun _ => rfl) (fun _ _ => rfl) (fun _ _ => rfl) (fun _ => rfl)) (fun _ => rfl) : Parts (KDec.onlyIf (version ≥ 4) (KDec.field Dec.bool false (fun t x => { t with AllowAutoTopicCreation := x }))) (MetadataRequest.first 1) (MetadataRequest.first 2) (fun r y => r = MetadataRequest.first 1 y))
    |>.andThen (.onlyIf (.field Longer.bool (fun _ => rfl) (fun _ _ => rfl) (fun _ _ => rfl) (fun _ => rfl)) (fun _ => rfl) : Parts (KDec.onlyIf (version ≥ 8) (KDec.field Dec.bool false (fun t x => { t with IncludeClusterAuthorizedOperations := x }))) (MetadataRequest.first 2) (MetadataRequest.first 3) (fun r y => r = MetadataRequest.first 2 y))
    |>.andThen (.onlyIf (.field Longer.bool (fun _ => rfl) (fun _ _ => rfl) (fun _ _ => rfl) (fun _ => rfl)) (fun _ => rfl) : Parts (KDec.onlyIf (version ≥ 8) (KDec.field Dec.bool false (fun t x => { t with IncludeTopicAuthorizedOperations := x }))) (MetadataRequest.first 3) (MetadataRequest.first 4) (fun r y => r = MetadataRequest.first 3 y))
theorem MetadataRequest.filled (version : Int16) : FilledStep 7 4295000073 (MetadataRequest.decode version) :=
  ((FilledStep.structs (MetadataRequestTopic3.filled version {}))
    |>.andThen (FilledStep.onlyIf (FilledStep.field .bool))
    |>.andThen (FilledStep.onlyIf (FilledStep.field .bool))
    |>.andThen (FilledStep.onlyIf (FilledStep.field .bool))).mono (by decide) (by decide)
theorem MetadataRequest.part_of (r y : MetadataRequest) (h : ((((r = MetadataRequest.first 0 y ∨ Cut.begun {} (fun t => t.Topics) (fun t x => { t with Topics := x }) (MetadataRequest.first 0) r y) ∨ (r = MetadataRequest.first 1 y)) ∨ (r = MetadataRequest.first 2 y)) ∨ (r = MetadataRequest.first 3 y))) : MetadataRequest.Part r y :=
  match h with
    | (.inl (.inl (.inl (.inl h)))) => .inl ⟨0, by decide, h⟩
    | (.inl (.inl (.inl (.inr h)))) => (.inr h)
    | (.inl (.inl (.inr h))) => .inl ⟨1, by decide, h⟩
    | (.inl (.inr h)) => .inl ⟨2, by decide, h⟩
    | (.inr h) => .inl ⟨3, by decide, h⟩
theorem MetadataRequest.keeps_holds : MetadataRequest.keeps.Holds MetadataRequest.layout :=
  KeptMsg.holds MetadataRequest.lawful MetadataRequest.sameK (stop := fun v t => MetadataRequest.ends v t 3) (c := fun v t => MetadataRequest.cutAt v t 0) (fun _ _ _ => rfl) MetadataRequest.cutsK (c0 := MetadataRequest.first 0) rfl MetadataRequest.partsK MetadataRequest.part_of MetadataRequest.filled (by decide) (by decide)

/-- message/messages.gen.go:1758-1779 `MetadataResponseBroker3.Decode`, with the receiver kept -/
def MetadataResponseBroker3.decodeK (version : Int16) : KDec MetadataResponseBroker3 :=
    KDec.field Dec.int32 0 (fun t x => { t with NodeId := x }) ;|>
    KDec.field Dec.string [] (fun t x => { t with Host := x }) ;|>
    KDec.field Dec.int32 0 (fun t x => { t with Port := x }) ;|>
    KDec.onlyIf (version ≥ 1) (KDec.field Dec.string [] (fun t x => { t with Rack := x }))

/-- Where the fields of `MetadataResponseBroker3` end. -/
def MetadataResponseBroker3.ends (version : Int16) (t : MetadataResponseBroker3) : Nat → Nat :=
  Cut.ends 0 [Wire.int32 t.NodeId,
    Wire.string t.Host,
    Wire.int32 t.Port,
    Wire.when (version ≥ 1) (Wire.string t.Rack)]

/-- What is left of `t` if only its first `n` bytes are there. -/
def MetadataResponseBroker3.cut (version : Int16) (n : Nat) (t : MetadataResponseBroker3) : MetadataResponseBroker3 :=
  { NodeId := Cut.field n (t.ends version 0) t.NodeId 0,
    Host := Cut.field n (t.ends version 1) t.Host [],
    Port := Cut.field n (t.ends version 2) t.Port 0,
    Rack := Cut.gate (version ≥ 1) (Cut.field n (t.ends version 3) t.Rack []) [] }

/-- The same after the first `k` statements of `Decode`. -/
def MetadataResponseBroker3.cutAt (version : Int16) (t : MetadataResponseBroker3) (k n : Nat) : MetadataResponseBroker3 :=
  { NodeId := upto k 0 (Cut.field n (t.ends version 0) t.NodeId 0) 0,
    Host := upto k 1 (Cut.field n (t.ends version 1) t.Host []) [],
    Port := upto k 2 (Cut.field n (t.ends version 2) t.Port 0) 0,
    Rack := upto k 3 (Cut.gate (version ≥ 1) (Cut.field n (t.ends version 3) t.Rack []) []) [] }

/-- The first `k` fields of `y`, and zeros. -/
def MetadataResponseBroker3.first (k : Nat) (y : MetadataResponseBroker3) : MetadataResponseBroker3 :=
  { NodeId := upto k 0 y.NodeId 0,
    Host := upto k 1 y.Host [],
    Port := upto k 2 y.Port 0,
    Rack := upto k 3 y.Rack [] }

/-- `r` is a beginning of `y`, and zeros. -/
def MetadataResponseBroker3.Part (r y : MetadataResponseBroker3) : Prop :=
  (∃ k, k < 4 ∧ r = y.first k)

/-- `MetadataResponseBroker3` with its receiver kept. -/
def MetadataResponseBroker3.keeps : KeptMsg MetadataResponseBroker3.type := { decode := MetadataResponseBroker3.decodeK, cut := MetadataResponseBroker3.cut, Part := MetadataResponseBroker3.Part }

theorem MetadataResponseBroker3.sameK (version : Int16) : KStep (MetadataResponseBroker3.decodeK version) (MetadataResponseBroker3.decode version) :=
  (KStep.field)
    |>.andThen (KStep.field)
    |>.andThen (KStep.field)
    |>.andThen (KStep.onlyIf (KStep.field))
theorem MetadataResponseBroker3.cutsK (version : Int16) (t : MetadataResponseBroker3) (h : t.Fits version) :
    Cuts (MetadataResponseBroker3.decodeK version) 0 (MetadataResponseBroker3.wire version t) (MetadataResponseBroker3.ends version t 3) (MetadataResponseBroker3.cutAt version t 0) (MetadataResponseBroker3.cutAt version t 4) :=
  (.field (reads_int32 t.NodeId) (fun _ => rfl) (fun _ => rfl) : Cuts _ 0 _ (MetadataResponseBroker3.ends version t 0) (MetadataResponseBroker3.cutAt version t 0) (MetadataResponseBroker3.cutAt version t 1))
    |>.andThen (.field (reads_string h.Host) (fun _ => rfl) (fun _ => rfl) : Cuts _ (MetadataResponseBroker3.ends version t 0) _ (MetadataResponseBroker3.ends version t 1) (MetadataResponseBroker3.cutAt version t 1) (MetadataResponseBroker3.cutAt version t 2))
    |>.andThen (.field (reads_int32 t.Port) (fun _ => rfl) (fun _ => rfl) : Cuts _ (MetadataResponseBroker3.ends version t 1) _ (MetadataResponseBroker3.ends version t 2) (MetadataResponseBroker3.cutAt version t 2) (MetadataResponseBroker3.cutAt version t 3))
    |>.andThen (.optField (fun hc => reads_string (h.Rack hc)) (fun _ => rfl) (fun _ => rfl) : Cuts _ (MetadataResponseBroker3.ends version t 2) _ (MetadataResponseBroker3.ends version t 3) (MetadataResponseBroker3.cutAt version t 3) (MetadataResponseBroker3.cutAt version t 4))
theorem MetadataResponseBroker3.partsK (version : Int16) : Parts (MetadataResponseBroker3.decodeK version) (MetadataResponseBroker3.first 0) (MetadataResponseBroker3.first 4) (fun r y => ((((r = MetadataResponseBroker3.first 0 y) ∨ (r = MetadataResponseBroker3.first 1 y)) ∨ (r = MetadataResponseBroker3.first 2 y)) ∨ (r = MetadataResponseBroker3.first 3 y))) :=
  (.field Longer.int32 (fun _ => rfl) (fun _ _ => rfl) (fun _ _ => rfl) (fun _ => rfl) : Parts (KDec.field Dec.int32 0 (fun t x => { t with NodeId := x })) (MetadataResponseBroker3.first 0) (MetadataResponseBroker3.first 1) (fun r y => r = MetadataResponseBroker3.first 0 y))
    |>.andThen (.field Longer.string (fun _ => rfl) (fun _ _ => rfl) (fun _ _ => rfl) (fun _ => rfl) : Parts (KDec.field Dec.string [] (fun t x => { t with Host := x })) (MetadataResponseBroker3.first 1) (MetadataResponseBroker3.first 2) (fun r y => r = MetadataResponseBroker3.first 1 y))
    |>.andThen (.field Longer.int32 (fun _ => rfl) (fun _ _ => rfl) (fun _ _ => rfl) (fun _ => rfl) : Parts (KDec.field Dec.int32 0 (fun t x => { t with Port := x })) (MetadataResponseBroker3.first 2) (MetadataResponseBroker3.first 3) (fun r y => r = MetadataResponseBroker3.first 2 y))
    |>.andThen (.onlyIf (.field Longer.string (fun _ => rfl) (fun _ _ => rfl) (fun _ _ => rfl) (fun _ => rfl)) (fun _ => rfl) : Parts (KDec.onlyIf (version ≥ 1) (KDec.field Dec.string [] (fun t x => { t with Rack := x }))) (MetadataResponseBroker3.first 3) (MetadataResponseBroker3.first 4) (fun r y => r = MetadataResponseBroker3.first 3 y))
theorem MetadataResponseBroker3.filled (version : Int16) : FilledStep 12 32776 (MetadataResponseBroker3.decode version) :=
  ((FilledStep.field .int32)
    |>.andThen (FilledStep.field .string)
    |>.andThen (FilledStep.field .int32)
    |>.andThen (FilledStep.onlyIf (FilledStep.field .string))).mono (by decide) (by decide)
theorem MetadataResponseBroker3.part_of (r y : MetadataResponseBroker3) (h : ((((r = MetadataResponseBroker3.first 0 y) ∨ (r = MetadataResponseBroker3.first 1 y)) ∨ (r = MetadataResponseBroker3.first 2 y)) ∨ (r = MetadataResponseBroker3.first 3 y))) : MetadataResponseBroker3.Part r y :=
  match h with
    | (.inl (.inl (.inl h))) => ⟨0, by decide, h⟩
    | (.inl (.inl (.inr h))) => ⟨1, by decide, h⟩
    | (.inl (.inr h)) => ⟨2, by decide, h⟩
    | (.inr h) => ⟨3, by decide, h⟩
theorem MetadataResponseBroker3.keeps_holds : MetadataResponseBroker3.keeps.Holds MetadataResponseBroker3.layout :=
  KeptMsg.holds MetadataResponseBroker3.lawful MetadataResponseBroker3.sameK (stop := fun v t => MetadataResponseBroker3.ends v t 3) (c := fun v t => MetadataResponseBroker3.cutAt v t 0) (fun _ _ _ => rfl) MetadataResponseBroker3.cutsK (c0 := MetadataResponseBroker3.first 0) rfl MetadataResponseBroker3.partsK MetadataResponseBroker3.part_of MetadataResponseBroker3.filled (by decide) (by decide)

/-- message/messages.gen.go:1907-1942 `MetadataResponsePartition3.Decode`, with the receiver kept -/
def MetadataResponsePartition3.decodeK (version : Int16) : KDec MetadataResponsePartition3 :=
    KDec.field Dec.int16 0 (fun t x => { t with ErrorCode := x }) ;|>
    KDec.field Dec.int32 0 (fun t x => { t with PartitionIndex := x }) ;|>
    KDec.field Dec.int32 0 (fun t x => { t with LeaderId := x }) ;|>
    KDec.onlyIf (version ≥ 7) (KDec.field Dec.int32 0 (fun t x => { t with LeaderEpoch := x })) ;|>
    KDec.field Dec.int32Array none (fun t x => { t with ReplicaNodes := x }) ;|>
    KDec.field Dec.int32Array none (fun t x => { t with IsrNodes := x }) ;|>
    KDec.onlyIf (version ≥ 5) (KDec.field Dec.int32Array none (fun t x => { t with OfflineReplicas := x }))

/-- Where the fields of `MetadataResponsePartition3` end. -/
def MetadataResponsePartition3.ends (version : Int16) (t : MetadataResponsePartition3) : Nat → Nat :=
  Cut.ends 0 [Wire.int16 t.ErrorCode,
    Wire.int32 t.PartitionIndex,
    Wire.int32 t.LeaderId,
    Wire.when (version ≥ 7) (Wire.int32 t.LeaderEpoch),
    Wire.int32Array t.ReplicaNodes,
    Wire.int32Array t.IsrNodes,
    Wire.when (version ≥ 5) (Wire.int32Array t.OfflineReplicas)]

/-- What is left of `t` if only its first `n` bytes are there. -/
def MetadataResponsePartition3.cut (version : Int16) (n : Nat) (t : MetadataResponsePartition3) : MetadataResponsePartition3 :=
  { ErrorCode := Cut.field n (t.ends version 0) t.ErrorCode 0,
    PartitionIndex := Cut.field n (t.ends version 1) t.PartitionIndex 0,
    LeaderId := Cut.field n (t.ends version 2) t.LeaderId 0,
    LeaderEpoch := Cut.gate (version ≥ 7) (Cut.field n (t.ends version 3) t.LeaderEpoch 0) 0,
    ReplicaNodes := Cut.field n (t.ends version 4) t.ReplicaNodes none,
    IsrNodes := Cut.field n (t.ends version 5) t.IsrNodes none,
    OfflineReplicas := Cut.gate (version ≥ 5) (Cut.field n (t.ends version 6) t.OfflineReplicas none) none }

/-- The same after the first `k` statements of `Decode`. -/
def MetadataResponsePartition3.cutAt (version : Int16) (t : MetadataResponsePartition3) (k n : Nat) : MetadataResponsePartition3 :=
  { ErrorCode := upto k 0 (Cut.field n (t.ends version 0) t.ErrorCode 0) 0,
    PartitionIndex := upto k 1 (Cut.field n (t.ends version 1) t.PartitionIndex 0) 0,
    LeaderId := upto k 2 (Cut.field n (t.ends version 2) t.LeaderId 0) 0,
    LeaderEpoch := upto k 3 (Cut.gate (version ≥ 7) (Cut.field n (t.ends version 3) t.LeaderEpoch 0) 0) 0,
    ReplicaNodes := upto k 4 (Cut.field n (t.ends version 4) t.ReplicaNodes none) none,
    IsrNodes := upto k 5 (Cut.field n (t.ends version 5) t.IsrNodes none) none,
    OfflineReplicas := upto k 6 (Cut.gate (version ≥ 5) (Cut.field n (t.ends version 6) t.OfflineReplicas none) none) none }

/-- The first `k` fields of `y`, and zeros. -/
def MetadataResponsePartition3.first (k : Nat) (y : MetadataResponsePartition3) : MetadataResponsePartition3 :=
  { ErrorCode := upto k 0 y.ErrorCode 0,
    PartitionIndex := upto k 1 y.PartitionIndex 0,
    LeaderId := upto k 2 y.LeaderId 0,
    LeaderEpoch := upto k 3 y.LeaderEpoch 0,
    ReplicaNodes := upto k 4 y.ReplicaNodes none,
    IsrNodes := upto k 5 y.IsrNodes none,
    OfflineReplicas := upto k 6 y.OfflineReplicas none }

/-- `r` is a beginning of `y`, and zeros. -/
def MetadataResponsePartition3.Part (r y : MetadataResponsePartition3) : Prop :=
  (∃ k, k < 7 ∧ r = y.first k)

/-- `MetadataResponsePartition3` with its receiver kept. -/
def MetadataResponsePartition3.keeps : KeptMsg MetadataResponsePartition3.type := { decode := MetadataResponsePartition3.decodeK, cut := MetadataResponsePartition3.cut, Part := MetadataResponsePartition3.Part }

theorem MetadataResponsePartition3.sameK (version : Int16) : KStep (MetadataResponsePartition3.decodeK version) (MetadataResponsePartition3.decode version) :=
  (KStep.field)
    |>.andThen (KStep.field)
    |>.andThen (KStep.field)
    |>.andThen (KStep.onlyIf (KStep.field))
    |>.andThen (KStep.field)
    |>.andThen (KStep.field)
    |>.andThen (KStep.onlyIf (KStep.field))
theorem MetadataResponsePartition3.cutsK (version : Int16) (t : MetadataResponsePartition3) (h : t.Fits version) :
    Cuts (MetadataResponsePartition3.decodeK version) 0 (MetadataResponsePartition3.wire version t) (MetadataResponsePartition3.ends version t 6) (MetadataResponsePartition3.cutAt version t 0) (MetadataResponsePartition3.cutAt version t 7) :=
  (.field (reads_int16 t.ErrorCode) (fun _ => rfl) (fun _ => rfl) : Cuts _ 0 _ (MetadataResponsePartition3.ends version t 0) (MetadataResponsePartition3.cutAt version t 0) (MetadataResponsePartition3.cutAt version t 1))
    |>.andThen (.field (reads_int32 t.PartitionIndex) (fun _ => rfl) (fun _ => rfl) : Cuts _ (MetadataResponsePartition3.ends version t 0) _ (MetadataResponsePartition3.ends version t 1) (MetadataResponsePartition3.cutAt version t 1) (MetadataResponsePartition3.cutAt version t 2))
    |>.andThen (.field (reads_int32 t.LeaderId) (fun _ => rfl) (fun _ => rfl) : Cuts _ (MetadataResponsePartition3.ends version t 1) _ (MetadataResponsePartition3.ends version t 2) (MetadataResponsePartition3.cutAt version t 2) (MetadataResponsePartition3.cutAt version t 3))
    |>.andThen (.optField (fun _ => reads_int32 t.LeaderEpoch) (fun _ => rfl) (fun _ => rfl) : Cuts _ (MetadataResponsePartition3.ends version t 2) _ (MetadataResponsePartition3.ends version t 3) (MetadataResponsePartition3.cutAt version t 3) (MetadataResponsePartition3.cutAt version t 4))
    |>.andThen (.field (reads_int32Array h.ReplicaNodes) (fun _ => rfl) (fun _ => rfl) : Cuts _ (MetadataResponsePartition3.ends version t 3) _ (MetadataResponsePartition3.ends version t 4) (MetadataResponsePartition3.cutAt version t 4) (MetadataResponsePartition3.cutAt version t 5))
    |>.andThen (.field (reads_int32Array h.IsrNodes) (fun _ => rfl) (fun _ => rfl) : Cuts _ (MetadataResponsePartition3.ends version t 4) _ (MetadataResponsePartition3.ends version t 5) (MetadataResponsePartition3.cutAt version t 5) (MetadataResponsePartition3.cutAt version t 6))
    |>.andThen (.optField (fun hc => reads_int32Array (h.OfflineReplicas hc)) (fun _ => rfl) (fun _ => rfl) : Cuts _ (MetadataResponsePartition3.ends version t 5) _ (MetadataResponsePartition3.ends version t 6) (MetadataResponsePartition3.cutAt version t 6) (MetadataResponsePartition3.cutAt version t 7))
theorem MetadataResponsePartition3.partsK (version : Int16) : Parts (MetadataResponsePartition3.decodeK version) (MetadataResponsePartition3.first 0) (MetadataResponsePartition3.first 7) (fun r y => (((((((r = MetadataResponsePartition3.first 0 y) ∨ (r = MetadataResponsePartition3.first 1 y)) ∨ (r = MetadataResponsePartition3.first 2 y)) ∨ (r = MetadataResponsePartition3.first 3 y)) ∨ (r = MetadataResponsePartition3.first 4 y)) ∨ (r = MetadataResponsePartition3.first 5 y)) ∨ (r = MetadataResponsePartition3.first 6 y))) :=
  (.field Longer.int16 (fun _ => rfl) (fun _ _ => rfl) (fun _ _ => rfl) (fun _ => rfl) : Parts (KDec.field Dec.int16 0 (fun t x => { t with ErrorCode := x })) (MetadataResponsePartition3.first 0) (MetadataResponsePartition3.first 1) (fun r y => r = MetadataResponsePartition3.first 0 y))
    |>.andThen (.field Longer.int32 (fun _ => rfl) (fun _ _ => rfl) (fun _ _ => rfl) (fun _ => rfl) : Parts (KDec.field Dec.int32 0 (fun t x => { t with PartitionIndex := x })) (MetadataResponsePartition3.first 1) (MetadataResponsePartition3.first 2) (fun r y => r = MetadataResponsePartition3.first 1 y))
    |>.andThen (.field Longer.int32 (fun _ => rfl) (fun _ _ => rfl) (fun _ _ => rfl) (fun _ => rfl) : Parts (KDec.field Dec.int32 0 (fun t x => { t with LeaderId := x })) (MetadataResponsePartition3.first 2) (MetadataResponsePartition3.first 3) (fun r y => r = MetadataResponsePartition3.first 2 y))
    |>.andThen (.onlyIf (.field Longer.int32 (fun _ => rfl) (fun _ _ => rfl) (fun _ _ => rfl) (fun _ => rfl)) (fun _ => rfl) : Parts (KDec.onlyIf (version ≥ 7) (KDec.field Dec.int32 0 (fun t x => { t with LeaderEpoch := x }))) (MetadataResponsePartition3.first 3) (MetadataResponsePartition3.first 4) (fun r y => r = MetadataResponsePartition3.first 3 y))
    |>.andThen (.field Longer.int32Array (fun _ => rfl) (fun _ _ => rfl) (fun _ _ => rfl) (fun _ => rfl) : Parts (KDec.field Dec.int32Array none (fun t x => { t with ReplicaNodes := x })) (MetadataResponsePartition3.first 4) (MetadataResponsePartition3.first 5) (fun r y => r = MetadataResponsePartition3.first 4 y))
    |>.andThen (.field Longer.int32Array (fun _ => rfl) (fun _ _ => rfl) (fun _ _ => rfl) (fun _ => rfl) : Parts (KDec.field Dec.int32Array none (fun t x => { t with IsrNodes := x })) (MetadataResponsePartition3.first 5) (MetadataResponsePartition3.first 6) (fun r y => r = MetadataResponsePartition3.first 5 y))
    |>.andThen (.onlyIf (.field Longer.int32Array (fun _ => rfl) (fun _ _ => rfl) (fun _ _ => rfl) (fun _ => rfl)) (fun _ => rfl) : Parts (KDec.onlyIf (version ≥ 5) (KDec.field Dec.int32Array none (fun t x => { t with OfflineReplicas := x }))) (MetadataResponsePartition3.first 6) (MetadataResponsePartition3.first 7) (fun r y => r = MetadataResponsePartition3.first 6 y))
theorem MetadataResponsePartition3.filled (version : Int16) : FilledStep 26 8589934608 (MetadataResponsePartition3.decode version) :=
  ((FilledStep.field .int16)
    |>.andThen (FilledStep.field .int32)
    |>.andThen (FilledStep.field .int32)
    |>.andThen (FilledStep.onlyIf (FilledStep.field .int32))
    |>.andThen (FilledStep.field .int32Array)
    |>.andThen (FilledStep.field .int32Array)
    |>.andThen (FilledStep.onlyIf (FilledStep.field .int32Array))).mono (by decide) (by decide)
theorem MetadataResponsePartition3.part_of (r y : MetadataResponsePartition3) (h : (((((((r = MetadataResponsePartition3.first 0 y) ∨ (r = MetadataResponsePartition3.first 1 y)) ∨ (r = MetadataResponsePartition3.first 2 y)) ∨ (r = MetadataResponsePartition3.first 3 y)) ∨ (r = MetadataResponsePartition3.first 4 y)) ∨ (r = MetadataResponsePartition3.first 5 y)) ∨ (r = MetadataResponsePartition3.first 6 y))) : MetadataResponsePartition3.Part r y :=
  match h with
    | (.inl (.inl (.inl (.inl (.inl (.inl h)))))) => ⟨0, by decide, h⟩
    | (.inl (.inl (.inl (.inl (.inl (.inr h)))))) => ⟨1, by decide, h⟩
    | (.inl (.inl (.inl (.inl (.inr h))))) => ⟨2, by decide, h⟩
    | (.inl (.inl (.inl (.inr h)))) => ⟨3, by decide, h⟩
    | (.inl (.inl (.inr h))) => ⟨4, by decide, h⟩
    | (.inl (.inr h)) => ⟨5, by decide, h⟩
    | (.inr h) => ⟨6, by decide, h⟩
theorem MetadataResponsePartition3.keeps_holds : MetadataResponsePartition3.keeps.Holds MetadataResponsePartition3.layout :=
  KeptMsg.holds MetadataResponsePartition3.lawful MetadataResponsePartition3.sameK (stop := fun v t => MetadataResponsePartition3.ends v t 6) (c := fun v t => MetadataResponsePartition3.cutAt v t 0) (fun _ _ _ => rfl) MetadataResponsePartition3.cutsK (c0 := MetadataResponsePartition3.first 0) rfl MetadataResponsePartition3.partsK MetadataResponsePartition3.part_of MetadataResponsePartition3.filled (by decide) (by decide)

/-- message/messages.gen.go:1826-1862 `MetadataResponseTopic3.Decode`, with the receiver kept -/
def MetadataResponseTopic3.decodeK (version : Int16) : KDec MetadataResponseTopic3 :=
    KDec.field Dec.int16 0 (fun t x => { t with ErrorCode := x }) ;|>
    KDec.field Dec.string [] (fun t x => { t with Name := x }) ;|>
    KDec.onlyIf (version ≥ 1) (KDec.field Dec.bool false (fun t x => { t with IsInternal := x })) ;|>
    KDec.fieldStructs (MetadataResponsePartition3.decodeK version {}) {} (fun t x => { t with Partitions := x }) ;|>
    KDec.onlyIf (version ≥ 8) (KDec.field Dec.int32 0 (fun t x => { t with TopicAuthorizedOperations := x }))

/-- Where the fields of `MetadataResponseTopic3` end. -/
def MetadataResponseTopic3.ends (version : Int16) (t : MetadataResponseTopic3) : Nat → Nat :=
  Cut.ends 0 [Wire.int16 t.ErrorCode,
    Wire.string t.Name,
    Wire.when (version ≥ 1) (Wire.bool t.IsInternal),
    Wire.array (MetadataResponsePartition3.wire version) t.Partitions,
    Wire.when (version ≥ 8) (Wire.int32 t.TopicAuthorizedOperations)]

/-- What is left of `t` if only its first `n` bytes are there. -/
def MetadataResponseTopic3.cut (version : Int16) (n : Nat) (t : MetadataResponseTopic3) : MetadataResponseTopic3 :=
  { ErrorCode := Cut.field n (t.ends version 0) t.ErrorCode 0,
    Name := Cut.field n (t.ends version 1) t.Name [],
    IsInternal := Cut.gate (version ≥ 1) (Cut.field n (t.ends version 2) t.IsInternal false) false,
    Partitions := Cut.array n (t.ends version 2) (MetadataResponsePartition3.wire version) (fun x => x.seen version {}) {} t.Partitions,
    TopicAuthorizedOperations := Cut.gate (version ≥ 8) (Cut.field n (t.ends version 4) t.TopicAuthorizedOperations 0) 0 }

/-- The same after the first `k` statements of `Decode`. -/
def MetadataResponseTopic3.cutAt (version : Int16) (t : MetadataResponseTopic3) (k n : Nat) : MetadataResponseTopic3 :=
  { ErrorCode := upto k 0 (Cut.field n (t.ends version 0) t.ErrorCode 0) 0,
    Name := upto k 1 (Cut.field n (t.ends version 1) t.Name []) [],
    IsInternal := upto k 2 (Cut.gate (version ≥ 1) (Cut.field n (t.ends version 2) t.IsInternal false) false) false,
    Partitions := upto k 3 (Cut.array n (t.ends version 2) (MetadataResponsePartition3.wire version) (fun x => x.seen version {}) {} t.Partitions) none,
    TopicAuthorizedOperations := upto k 4 (Cut.gate (version ≥ 8) (Cut.field n (t.ends version 4) t.TopicAuthorizedOperations 0) 0) 0 }

/-- The first `k` fields of `y`, and zeros. -/
def MetadataResponseTopic3.first (k : Nat) (y : MetadataResponseTopic3) : MetadataResponseTopic3 :=
  { ErrorCode := upto k 0 y.ErrorCode 0,
    Name := upto k 1 y.Name [],
    IsInternal := upto k 2 y.IsInternal false,
    Partitions := upto k 3 y.Partitions none,
    TopicAuthorizedOperations := upto k 4 y.TopicAuthorizedOperations 0 }

/-- `r` is a beginning of `y`, and zeros. -/
def MetadataResponseTopic3.Part (r y : MetadataResponseTopic3) : Prop :=
  (∃ k, k < 5 ∧ r = y.first k) ∨
    Cut.begun {} (fun t => t.Partitions) (fun t x => { t with Partitions := x }) (MetadataResponseTopic3.first 3) r y

/-- `MetadataResponseTopic3` with its receiver kept. -/
def MetadataResponseTopic3.keeps : KeptMsg MetadataResponseTopic3.type := { decode := MetadataResponseTopic3.decodeK, cut := MetadataResponseTopic3.cut, Part := MetadataResponseTopic3.Part }

theorem MetadataResponseTopic3.sameK (version : Int16) : KStep (MetadataResponseTopic3.decodeK version) (MetadataResponseTopic3.decode version) :=
  (KStep.field)
    |>.andThen (KStep.field)
    |>.andThen (KStep.onlyIf (KStep.field))
    |>.andThen (KStep.structs (fun _ => rfl) (MetadataResponsePartition3.sameK version {}))
    |>.andThen (KStep.onlyIf (KStep.field))
theorem MetadataResponseTopic3.cutsK (version : Int16) (t : MetadataResponseTopic3) (h : t.Fits version) :
    Cuts (MetadataResponseTopic3.decodeK version) 0 (MetadataResponseTopic3.wire version t) (MetadataResponseTopic3.ends version t 4) (MetadataResponseTopic3.cutAt version t 0) (MetadataResponseTopic3.cutAt version t 5) :=
  (.field (reads_int16 t.ErrorCode) (fun _ => rfl) (fun _ => rfl) : Cuts _ 0 _ (MetadataResponseTopic3.ends version t 0) (MetadataResponseTopic3.cutAt version t 0) (MetadataResponseTopic3.cutAt version t 1))
    |>.andThen (.field (reads_string h.Name) (fun _ => rfl) (fun _ => rfl) : Cuts _ (MetadataResponseTopic3.ends version t 0) _ (MetadataResponseTopic3.ends version t 1) (MetadataResponseTopic3.cutAt version t 1) (MetadataResponseTopic3.cutAt version t 2))
    |>.andThen (.optField (fun _ => reads_bool t.IsInternal) (fun _ => rfl) (fun _ => rfl) : Cuts _ (MetadataResponseTopic3.ends version t 1) _ (MetadataResponseTopic3.ends version t 2) (MetadataResponseTopic3.cutAt version t 2) (MetadataResponseTopic3.cutAt version t 3))
    |>.andThen (.structs (MetadataResponsePartition3.sameK version {}) (fun x hx => MetadataResponsePartition3.reads version x hx {}) h.Partitions (fun _ => rfl) (fun _ => rfl) : Cuts _ (MetadataResponseTopic3.ends version t 2) _ (MetadataResponseTopic3.ends version t 3) (MetadataResponseTopic3.cutAt version t 3) (MetadataResponseTopic3.cutAt version t 4))
    |>.andThen (.optField (fun _ => reads_int32 t.TopicAuthorizedOperations) (fun _ => rfl) (fun _ => rfl) : Cuts _ (MetadataResponseTopic3.ends version t 3) _ (MetadataResponseTopic3.ends version t 4) (MetadataResponseTopic3.cutAt version t 4) (MetadataResponseTopic3.cutAt version t 5))
theorem MetadataResponseTopic3.partsK (version : Int16) : Parts (MetadataResponseTopic3.decodeK version) (MetadataResponseTopic3.first 0) (MetadataResponseTopic3.first 5) (fun r y => (((((r = MetadataResponseTopic3.first 0 y) ∨ (r = MetadataResponseTopic3.first 1 y)) ∨ (r = MetadataResponseTopic3.first 2 y)) ∨ (r = MetadataResponseTopic3.first 3 y ∨ Cut.begun {} (fun t => t.Partitions) (fun t x => { t with Partitions := x }) (MetadataResponseTopic3.first 3) r y)) ∨ (r = MetadataResponseTopic3.first 4 y))) :=
  (.field Longer.int16 (fun _ => rfl) (fun _ _ => rfl) (fun _ _ => rfl) (fun _ => rfl) : Parts (KDec.field Dec.int16 0 (fun t x => { t with ErrorCode := x })) (MetadataResponseTopic3.first 0) (MetadataResponseTopic3.first 1) (fun r y => r = MetadataResponseTopic3.first 0 y))
    |>.andThen (.field Longer.string (fun _ => rfl) (fun _ _ => rfl) (fun _ _ => rfl) (fun _ => rfl) : Parts (KDec.field Dec.string [] (fun t x => { t with Name := x })) (MetadataResponseTopic3.first 1) (MetadataResponseTopic3.first 2) (fun r y => r = MetadataResponseTopic3.first 1 y))
    |>.andThen (.onlyIf (.field Longer.bool (fun _ => rfl) (fun _ _ => rfl) (fun _ _ => rfl) (fun _ => rfl)) (fun _ => rfl) : Parts (KDec.onlyIf (version ≥ 1) (KDec.field Dec.bool false (fun t x => { t with IsInternal := x }))) (MetadataResponseTopic3.first 2) (MetadataResponseTopic3.first 3) (fun r y => r = MetadataResponseTopic3.first 2 y))
    |>.andThen (.structs (get := fun (t : MetadataResponseTopic3) => t.Partitions) ((MetadataResponsePartition3.partsK version).longer {}) (fun _ => rfl) (fun _ => rfl) (fun _ _ => rfl) (fun _ _ => rfl) (fun _ _ => rfl) (fun _ => rfl) (fun _ => rfl) : Parts (KDec.fieldStructs (MetadataResponsePartition3.decodeK version {}) {} (fun t x => { t with Partitions := x })) (MetadataResponseTopic3.first 3) (MetadataResponseTopic3.first 4) (fun r y => r = MetadataResponseTopic3.first 3 y ∨ Cut.begun {} (fun t => t.Partitions) (fun t x => { t with Partitions := x }) (MetadataResponseTopic3.first 3) r y))
    |>.andThen (.onlyIf (.field Longer.int32 (fun _ => rfl) (fun _ _ => rfl) (fun _ _ => rfl) (fun _ => rfl)) (fun _ => rfl) : Parts (KDec.onlyIf (version ≥ 8) (KDec.field Dec.int32 0 (fun t x => { t with TopicAuthorizedOperations := x }))) (MetadataResponseTopic3.first 4) (MetadataResponseTopic3.first 5) (fun r y => r = MetadataResponseTopic3.first 4 y))
theorem MetadataResponseTopic3.filled (version : Int16) : FilledStep 13 64424509464 (MetadataResponseTopic3.decode version) :=
  ((FilledStep.field .int16)
    |>.andThen (FilledStep.field .string)
    |>.andThen (FilledStep.onlyIf (FilledStep.field .bool))
    |>.andThen (FilledStep.structs (MetadataResponsePartition3.filled version {}))
    |>.andThen (FilledStep.onlyIf (FilledStep.field .int32))).mono (by decide) (by decide)
theorem MetadataResponseTopic3.part_of (r y : MetadataResponseTopic3) (h : (((((r = MetadataResponseTopic3.first 0 y) ∨ (r = MetadataResponseTopic3.first 1 y)) ∨ (r = MetadataResponseTopic3.first 2 y)) ∨ (r = MetadataResponseTopic3.first 3 y ∨ Cut.begun {} (fun t => t.Partitions) (fun t x => { t with Partitions := x }) (MetadataResponseTopic3.first 3) r y)) ∨ (r = MetadataResponseTopic3.first 4 y))) : MetadataResponseTopic3.Part r y :=
  match h with
    | (.inl (.inl (.inl (.inl h)))) => .inl ⟨0, by decide, h⟩
    | (.inl (.inl (.inl (.inr h)))) => .inl ⟨1, by decide, h⟩
    | (.inl (.inl (.inr h))) => .inl ⟨2, by decide, h⟩
    | (.inl (.inr (.inl h))) => .inl ⟨3, by decide, h⟩
    | (.inl (.inr (.inr h))) => (.inr h)
    | (.inr h) => .inl ⟨4, by decide, h⟩
theorem MetadataResponseTopic3.keeps_holds : MetadataResponseTopic3.keeps.Holds MetadataResponseTopic3.layout :=
  KeptMsg.holds MetadataResponseTopic3.lawful MetadataResponseTopic3.sameK (stop := fun v t => MetadataResponseTopic3.ends v t 4) (c := fun v t => MetadataResponseTopic3.cutAt v t 0) (fun _ _ _ => rfl) MetadataResponseTopic3.cutsK (c0 := MetadataResponseTopic3.first 0) rfl MetadataResponseTopic3.partsK MetadataResponseTopic3.part_of MetadataResponseTopic3.filled (by decide) (by decide)

/-- message/messages.gen.go:1673-1726 `MetadataResponse.Decode`, with the receiver kept -/
def MetadataResponse.decodeK (version : Int16) : KDec MetadataResponse :=
    KDec.onlyIf (version ≥ 3) (KDec.field Dec.int32 0 (fun t x => { t with ThrottleTimeMs := x })) ;|>
    KDec.fieldStructs (MetadataResponseBroker3.decodeK version {}) {} (fun t x => { t with Brokers := x }) ;|>
    KDec.onlyIf (version ≥ 2) (KDec.field Dec.string [] (fun t x => { t with ClusterId := x })) ;|>
    KDec.onlyIf (version ≥ 1) (KDec.field Dec.int32 0 (fun t x => { t with ControllerId := x })) ;|>
    KDec.fieldStructs (MetadataResponseTopic3.decodeK version {}) {} (fun t x => { t with Topics := x }) ;|>
    KDec.onlyIf (version ≥ 8) (KDec.field Dec.int32 0 (fun t x => { t with ClusterAuthorizedOperations := x }))

/-- Where the fields of `MetadataResponse` end. -/
def MetadataResponse.ends (version : Int16) (t : MetadataResponse) : Nat → Nat :=
  Cut.ends 0 [Wire.when (version ≥ 3) (Wire.int32 t.ThrottleTimeMs),
    Wire.array (MetadataResponseBroker3.wire version) t.Brokers,
    Wire.when (version ≥ 2) (Wire.string t.ClusterId),
    Wire.when (version ≥ 1) (Wire.int32 t.ControllerId),
    Wire.array (MetadataResponseTopic3.wire version) t.Topics,
    Wire.when (version ≥ 8) (Wire.int32 t.ClusterAuthorizedOperations)]

/-- What is left of `t` if only its first `n` bytes are there. -/
def MetadataResponse.cut (version : Int16) (n : Nat) (t : MetadataResponse) : MetadataResponse :=
  { ThrottleTimeMs := Cut.gate (version ≥ 3) (Cut.field n (t.ends version 0) t.ThrottleTimeMs 0) 0,
    Brokers := Cut.array n (t.ends version 0) (MetadataResponseBroker3.wire version) (fun x => x.seen version {}) {} t.Brokers,
    ClusterId := Cut.gate (version ≥ 2) (Cut.field n (t.ends version 2) t.ClusterId []) [],
    ControllerId := Cut.gate (version ≥ 1) (Cut.field n (t.ends version 3) t.ControllerId 0) 0,
    Topics := Cut.array n (t.ends version 3) (MetadataResponseTopic3.wire version) (fun x => x.seen version {}) {} t.Topics,
    ClusterAuthorizedOperations := Cut.gate (version ≥ 8) (Cut.field n (t.ends version 5) t.ClusterAuthorizedOperations 0) 0 }

/-- The same after the first `k` statements of `Decode`. -/
def MetadataResponse.cutAt (version : Int16) (t : MetadataResponse) (k n : Nat) : MetadataResponse :=
  { ThrottleTimeMs := upto k 0 (Cut.gate (version ≥ 3) (Cut.field n (t.ends version 0) t.ThrottleTimeMs 0) 0) 0,
    Brokers := upto k 1 (Cut.array n (t.ends version 0) (MetadataResponseBroker3.wire version) (fun x => x.seen version {}) {} t.Brokers) none,
    ClusterId := upto k 2 (Cut.gate (version ≥ 2) (Cut.field n (t.ends version 2) t.ClusterId []) []) [],
    ControllerId := upto k 3 (Cut.gate (version ≥ 1) (Cut.field n (t.ends version 3) t.ControllerId 0) 0) 0,
    Topics := upto k 4 (Cut.array n (t.ends version 3) (MetadataResponseTopic3.wire version) (fun x => x.seen version {}) {} t.Topics) none,
    ClusterAuthorizedOperations := upto k 5 (Cut.gate (version ≥ 8) (Cut.field n (t.ends version 5) t.ClusterAuthorizedOperations 0) 0) 0 }

/-- The first `k` fields of `y`, and zeros. -/
def MetadataResponse.first (k : Nat) (y : MetadataResponse) : MetadataResponse :=
  { ThrottleTimeMs := upto k 0 y.ThrottleTimeMs 0,
    Brokers := upto k 1 y.Brokers none,
    ClusterId := upto k 2 y.ClusterId [],
    ControllerId := upto k 3 y.ControllerId 0,
    Topics := upto k 4 y.Topics none,
    ClusterAuthorizedOperations := upto k 5 y.ClusterAuthorizedOperations 0 }

/-- `r` is a beginning of `y`, and zeros. -/
def MetadataResponse.Part (r y : MetadataResponse) : Prop :=
  (∃ k, k < 6 ∧ r = y.first k) ∨
    Cut.begun {} (fun t => t.Brokers) (fun t x => { t with Brokers := x }) (MetadataResponse.first 1) r y ∨
    Cut.begun {} (fun t => t.Topics) (fun t x => { t with Topics := x }) (MetadataResponse.first 4) r y

/-- `MetadataResponse` with its receiver kept. -/
def MetadataResponse.keeps : KeptMsg MetadataResponse.type := { decode := MetadataResponse.decodeK, cut := MetadataResponse.cut, Part := MetadataResponse.Part }

theorem MetadataResponse.sameK (version : Int16) : KStep (MetadataResponse.decodeK version) (MetadataResponse.decode version) :=
  (KStep.onlyIf (KStep.field))
    |>.andThen (KStep.structs (fun _ => rfl) (MetadataResponseBroker3.sameK version {}))
    |>.andThen (KStep.onlyIf (KStep.field))
    |>.andThen (KStep.onlyIf (KStep.field))
    |>.andThen (KStep.structs (fun _ => rfl) (MetadataResponseTopic3.sameK version {}))
    |>.andThen (KStep.onlyIf (KStep.field))
theorem MetadataResponse.cutsK (version : Int16) (t : MetadataResponse) (h : t.Fits version) :
    Cuts (MetadataResponse.decodeK version) 0 (MetadataResponse.wire version t) (MetadataResponse.ends version t 5) (MetadataResponse.cutAt version t 0) (MetadataResponse.cutAt version t 6) :=
  (.optField (fun _ => reads_int32 t.ThrottleTimeMs) (fun _ => rfl) (fun _ => rfl) : Cuts _ 0 _ (MetadataResponse.ends version t 0) (MetadataResponse.cutAt version t 0) (MetadataResponse.cutAt version t 1))
    |>.andThen (.structs (MetadataResponseBroker3.sameK version {}) (fun x hx => MetadataResponseBroker3.reads version x hx {}) h.Brokers (fun _ => rfl) (fun _ => rfl) : Cuts _ (MetadataResponse.ends version t 0) _ (MetadataResponse.ends version t 1) (MetadataResponse.cutAt version t 1) (MetadataResponse.cutAt version t 2))
    |>.andThen (.optField (fun hc => reads_string (h.ClusterId hc)) (fun _ => rfl) (fun _ => rfl) : Cuts _ (MetadataResponse.ends version t 1) _ (MetadataResponse.ends version t 2) (MetadataResponse.cutAt version t 2) (MetadataResponse.cutAt version t 3))
    |>.andThen (.optField (fun _ => reads_int32 t.ControllerId) (fun _ => rfl) (fun _ => rfl) : Cuts _ (MetadataResponse.ends version t 2) _ (MetadataResponse.ends version t 3) (MetadataResponse.cutAt version t 3) (MetadataResponse.cutAt version t 4))
    |>.andThen (.structs (MetadataResponseTopic3.sameK version {}) (fun x hx => MetadataResponseTopic3.reads version x hx {}) h.Topics (fun _ => rfl) (fun _ => rfl) : Cuts _ (MetadataResponse.ends version t 3) _ (MetadataResponse.ends version t 4) (MetadataResponse.cutAt version t 4) (MetadataResponse.cutAt version t 5))
    |>.andThen (.optField (fun _ => reads_int32 t.ClusterAuthorizedOperations) (fun _ => rfl) (fun _ => rfl) : Cuts _ (MetadataResponse.ends version t 4) _ (MetadataResponse.ends version t 5) (MetadataResponse.cutAt version t 5) (MetadataResponse.cutAt version t 6))
theorem MetadataResponse.partsK (version : Int16) : Parts (MetadataResponse.decodeK version) (MetadataResponse.first 0) (MetadataResponse.first 6) (fun r y => ((((((r = MetadataResponse.first 0 y) ∨ (r = MetadataResponse.first 1 y ∨ Cut.begun {} (fun t => t.Brokers) (fun t x => { t with Brokers := x }) (MetadataResponse.first 1) r y)) ∨ (r = MetadataResponse.first 2 y)) ∨ (r = MetadataResponse.first 3 y)) ∨ (r = MetadataResponse.first 4 y ∨ Cut.begun {} (fun t => t.Topics) (fun t x => { t with Topics := x }) (MetadataResponse.first 4) r y)) ∨ (r = MetadataResponse.first 5 y))) :=
  (.onlyIf (.field Longer.int32 (fun _ => rfl) (fun _ _ => rfl) (fun _ _ => rfl) (fun _ => rfl)) (fun _ => rfl) : Parts (KDec.onlyIf (version ≥ 3) (KDec.field Dec.int32 0 (fun t x => { t with ThrottleTimeMs := x }))) (MetadataResponse.first 0) (MetadataResponse.first 1) (fun r y => r = MetadataResponse.first 0 y))
    |>.andThen (.structs (get := fun (t : MetadataResponse) => t.Brokers) ((MetadataResponseBroker3.partsK version).longer {}) (fun _ => rfl) (fun _ => rfl) (fun _ _ => rfl) (fun _ _ => rfl) (fun _ _ => rfl) (fun _ => rfl) (fun _ => rfl) : Parts (KDec.fieldStructs (MetadataResponseBroker3.decodeK version {}) {} (fun t x => { t with Brokers := x })) (MetadataResponse.first 1) (MetadataResponse.first 2) (fun r y => r = MetadataResponse.first 1 y ∨ Cut.begun {} (fun t => t.Brokers) (fun t x => { t with Brokers := x }) (MetadataResponse.first 1) r y))
    |>.andThen (.onlyIf (.field Longer.string (fun _ => rfl) (fun _ _ => rfl) (fun _ _ => rfl) (fun _ => rfl)) (fun _ => rfl) : Parts (KDec.onlyIf (version ≥ 2) (KDec.field Dec.string [] (fun t x => { t with ClusterId := x }))) (MetadataResponse.first 2) (MetadataResponse.first 3) (fun r y => r = MetadataResponse.first 2 y))
    |>.andThen (.onlyIf (.field Longer.int32 (fun _ => rfl) (fun _ _ => rfl) (fun _ _ => rfl) (fun _ => rfl)) (fun _ => rfl) : Parts (KDec.onlyIf (version ≥ 1) (KDec.field Dec.int32 0 (fun t x => { t with ControllerId := x }))) (MetadataResponse.first 3) (MetadataResponse.first 4) (fun r y => r = MetadataResponse.first 3 y))
    |>.andThen (.structs (get := fun (t : MetadataResponse) => t.Topics) ((MetadataResponseTopic3.partsK version).longer {}) (fun _ => rfl) (fun _ => rfl) (fun _ _ => rfl) (fun _ _ => rfl) (fun _ _ => rfl) (fun _ => rfl) (fun _ => rfl) : Parts (KDec.fieldStructs (MetadataResponseTopic3.decodeK version {}) {} (fun t x => { t with Topics := x })) (MetadataResponse.first 4) (MetadataResponse.first 5) (fun r y => r = MetadataResponse.first 4 y ∨ Cut.begun {} (fun t => t.Topics) (fun t x => { t with Topics := x }) (MetadataResponse.first 4) r y))
    |>.andThen (.onlyIf (.field Longer.int32 (fun _ => rfl) (fun _ _ => rfl) (fun _ _ => rfl) (fun _ => rfl)) (fun _ => rfl) : Parts (KDec.onlyIf (version ≥ 8) (KDec.field Dec.int32 0 (fun t x => { t with ClusterAuthorizedOperations := x }))) (MetadataResponse.first 5) (MetadataResponse.first 6) (fun r y => r = MetadataResponse.first 5 y))
theorem MetadataResponse.filled (version : Int16) : FilledStep 22 92341796896 (MetadataResponse.decode version) :=
  ((FilledStep.onlyIf (FilledStep.field .int32))
    |>.andThen (FilledStep.structs (MetadataResponseBroker3.filled version {}))
    |>.andThen (FilledStep.onlyIf (FilledStep.field .string))
    |>.andThen (FilledStep.onlyIf (FilledStep.field .int32))
    |>.andThen (FilledStep.structs (MetadataResponseTopic3.filled version {}))
    |>.andThen (FilledStep.onlyIf (FilledStep.field .int32))).mono (by decide) (by decide)
theorem MetadataResponse.part_of (r y : MetadataResponse) (h : ((((((r = MetadataResponse.first 0 y) ∨ (r = MetadataResponse.first 1 y ∨ Cut.begun {} (fun t => t.Brokers) (fun t x => { t with Brokers := x }) (MetadataResponse.first 1) r y)) ∨ (r = MetadataResponse.first 2 y)) ∨ (r = MetadataResponse.first 3 y)) ∨ (r = MetadataResponse.first 4 y ∨ Cut.begun {} (fun t => t.Topics) (fun t x => { t with Topics := x }) (MetadataResponse.first 4) r y)) ∨ (r = MetadataResponse.first 5 y))) : MetadataResponse.Part r y :=
  match h with
    | (.inl (.inl (.inl (.inl (.inl h))))) => .inl ⟨0, by decide, h⟩
    | (.inl (.inl (.inl (.inl (.inr (.inl h)))))) => .inl ⟨1, by decide, h⟩
    | (.inl (.inl (.inl (.inl (.inr (.inr h)))))) => (.inr (.inl h))
    | (.inl (.inl (.inl (.inr h)))) => .inl ⟨2, by decide, h⟩
    | (.inl (.inl (.inr h))) => .inl ⟨3, by decide, h⟩
    | (.inl (.inr (.inl h))) => .inl ⟨4, by decide, h⟩
    | (.inl (.inr (.inr h))) => (.inr (.inr h))
    | (.inr h) => .inl ⟨5, by decide, h⟩
theorem MetadataResponse.keeps_holds : MetadataResponse.keeps.Holds MetadataResponse.layout :=
  KeptMsg.holds MetadataResponse.lawful MetadataResponse.sameK (stop := fun v t => MetadataResponse.ends v t 5) (c := fun v t => MetadataResponse.cutAt v t 0) (fun _ _ _ => rfl) MetadataResponse.cutsK (c0 := MetadataResponse.first 0) rfl MetadataResponse.partsK MetadataResponse.part_of MetadataResponse.filled (by decide) (by decide)

/-- The structures of the Metadata messages. -/
def keptMetadata : List (Σ (M : MsgType) (_ : Layout M), KeptMsg M) :=
  [⟨MetadataRequest.type, MetadataRequest.layout, MetadataRequest.keeps⟩,
   ⟨MetadataRequestTopic3.type, MetadataRequestTopic3.layout, MetadataRequestTopic3.keeps⟩,
   ⟨MetadataResponse.type, MetadataResponse.layout, MetadataResponse.keeps⟩,
   ⟨MetadataResponseBroker3.type, MetadataResponseBroker3.layout, MetadataResponseBroker3.keeps⟩,
   ⟨MetadataResponseTopic3.type, MetadataResponseTopic3.layout, MetadataResponseTopic3.keeps⟩,
   ⟨MetadataResponsePartition3.type, MetadataResponsePartition3.layout, MetadataResponsePartition3.keeps⟩]
theorem keptMetadata_holds : ∀ p ∈ keptMetadata, p.2.2.Holds p.2.1 := by
  unfold keptMetadata
  simp only [List.forall_mem_cons]
  exact ⟨MetadataRequest.keeps_holds, MetadataRequestTopic3.keeps_holds, MetadataResponse.keeps_holds, MetadataResponseBroker3.keeps_holds, MetadataResponseTopic3.keeps_holds, MetadataResponsePartition3.keeps_holds, fun _ h => absurd h (by simp)⟩

end Kafka.Msg
