import Verif.Message.KeptLemmas
import Verif.Gen.Proof.TxnOffsetCommit
/-!
Generated by tools/gen_messages.py: what is in the TxnOffsetCommit messages after an error.
-/
set_option linter.unusedVariables false
namespace Kafka.Msg

/-- message/messages.gen.go:7499-7520 `TxnOffsetCommitRequestPartition28.Decode`, with the receiver kept -/
def TxnOffsetCommitRequestPartition28.decodeK (version : Int16) : KDec TxnOffsetCommitRequestPartition28 :=
    KDec.field Dec.int32 0 (fun t x => { t with PartitionIndex := x }) ;|>
    KDec.field Dec.int64 0 (fun t x => { t with CommittedOffset := x }) ;|>
    KDec.onlyIf (version ≥ 2) (KDec.field Dec.int32 0 (fun t x => { t with CommittedLeaderEpoch := x })) ;|>
    KDec.field Dec.string [] (fun t x => { t with CommittedMetadata := x })

/-- Where the fields of `TxnOffsetCommitRequestPartition28` end. -/
def TxnOffsetCommitRequestPartition28.ends (version : Int16) (t : TxnOffsetCommitRequestPartition28) : Nat → Nat :=
  Cut.ends 0 [Wire.int32 t.PartitionIndex,
    Wire.int64 t.CommittedOffset,
    Wire.when (version ≥ 2) (Wire.int32 t.CommittedLeaderEpoch),
    Wire.string t.CommittedMetadata]

/-- What is left of `t` if only its first `n` bytes are there. -/
def TxnOffsetCommitRequestPartition28.cut (version : Int16) (n : Nat) (t : TxnOffsetCommitRequestPartition28) : TxnOffsetCommitRequestPartition28 :=
  { PartitionIndex := Cut.field n (t.ends version 0) t.PartitionIndex 0,
    CommittedOffset := Cut.field n (t.ends version 1) t.CommittedOffset 0,
    CommittedLeaderEpoch := Cut.gate (version ≥ 2) (Cut.field n (t.ends version 2) t.CommittedLeaderEpoch 0) 0,
    CommittedMetadata := Cut.field n (t.ends version 3) t.CommittedMetadata [] }

/-- The same after the first `k` statements of `Decode`. -/
def TxnOffsetCommitRequestPartition28.cutAt (version : Int16) (t : TxnOffsetCommitRequestPartition28) (k n : Nat) : TxnOffsetCommitRequestPartition28 :=
  { PartitionIndex := upto k 0 (Cut.field n (t.ends version 0) t.PartitionIndex 0) 0,
    CommittedOffset := upto k 1 (Cut.field n (t.ends version 1) t.CommittedOffset 0) 0,
    CommittedLeaderEpoch := upto k 2 (Cut.gate (version ≥ 2) (Cut.field n (t.ends version 2) t.CommittedLeaderEpoch 0) 0) 0,
    CommittedMetadata := upto k 3 (Cut.field n (t.ends version 3) t.CommittedMetadata []) [] }

/-- The first `k` fields of `y`, and zeros. -/
def TxnOffsetCommitRequestPartition28.first (k : Nat) (y : TxnOffsetCommitRequestPartition28) : TxnOffsetCommitRequestPartition28 :=
  { PartitionIndex := upto k 0 y.PartitionIndex 0,
    CommittedOffset := upto k 1 y.CommittedOffset 0,
    CommittedLeaderEpoch := upto k 2 y.CommittedLeaderEpoch 0,
    CommittedMetadata := upto k 3 y.CommittedMetadata [] }

/-- `r` is a beginning of `y`, and zeros. -/
def TxnOffsetCommitRequestPartition28.Part (r y : TxnOffsetCommitRequestPartition28) : Prop :=
  (∃ k, k < 4 ∧ r = y.first k)

/-- `TxnOffsetCommitRequestPartition28` with its receiver kept. -/
def TxnOffsetCommitRequestPartition28.keeps : KeptMsg TxnOffsetCommitRequestPartition28.type := { decode := TxnOffsetCommitRequestPartition28.decodeK, cut := TxnOffsetCommitRequestPartition28.cut, Part := TxnOffsetCommitRequestPartition28.Part }

theorem TxnOffsetCommitRequestPartition28.sameK (version : Int16) : KStep (TxnOffsetCommitRequestPartition28.decodeK version) (TxnOffsetCommitRequestPartition28.decode version) :=
  (KStep.field)
    |>.andThen (KStep.field)
    |>.andThen (KStep.onlyIf (KStep.field))
    |>.andThen (KStep.field)
theorem TxnOffsetCommitRequestPartition28.cutsK (version : Int16) (t : TxnOffsetCommitRequestPartition28) (h : t.Fits version) :
    Cuts (TxnOffsetCommitRequestPartition28.decodeK version) 0 (TxnOffsetCommitRequestPartition28.wire version t) (TxnOffsetCommitRequestPartition28.ends version t 3) (TxnOffsetCommitRequestPartition28.cutAt version t 0) (TxnOffsetCommitRequestPartition28.cutAt version t 4) :=
  (.field (reads_int32 t.PartitionIndex) (fun _ => rfl) (fun _ => rfl) : Cuts _ 0 _ (TxnOffsetCommitRequestPartition28.ends version t 0) (TxnOffsetCommitRequestPartition28.cutAt version t 0) (TxnOffsetCommitRequestPartition28.cutAt version t 1))
    |>.andThen (.field (reads_int64 t.CommittedOffset) (fun _ => rfl) (fun _ => rfl) : Cuts _ (TxnOffsetCommitRequestPartition28.ends version t 0) _ (TxnOffsetCommitRequestPartition28.ends version t 1) (TxnOffsetCommitRequestPartition28.cutAt version t 1) (TxnOffsetCommitRequestPartition28.cutAt version t 2))
    |>.andThen (.optField (fun _ => reads_int32 t.CommittedLeaderEpoch) (fun _ => rfl) (fun _ => rfl) : Cuts _ (TxnOffsetCommitRequestPartition28.ends version t 1) _ (TxnOffsetCommitRequestPartition28.ends version t 2) (TxnOffsetCommitRequestPartition28.cutAt version t 2) (TxnOffsetCommitRequestPartition28.cutAt version t 3))
    |>.andThen (.field (reads_string h.CommittedMetadata) (fun _ => rfl) (fun _ => rfl) : Cuts _ (TxnOffsetCommitRequestPartition28.ends version t 2) _ (TxnOffsetCommitRequestPartition28.ends version t 3) (TxnOffsetCommitRequestPartition28.cutAt version t 3) (TxnOffsetCommitRequestPartition28.cutAt version t 4))
theorem TxnOffsetCommitRequestPartition28.partsK (version : Int16) : Parts (TxnOffsetCommitRequestPartition28.decodeK version) (TxnOffsetCommitRequestPartition28.first 0) (TxnOffsetCommitRequestPartition28.first 4) (fun r y => ((((r = TxnOffsetCommitRequestPartition28.first 0 y) ∨ (r = TxnOffsetCommitRequestPartition28.first 1 y)) ∨ (r = TxnOffsetCommitRequestPartition28.first 2 y)) ∨ (r = TxnOffsetCommitRequestPartition28.first 3 y))) :=
  (.field Longer.int32 (fun _ => rfl) (fun _ _ => rfl) (fun _ _ => rfl) (fun _ => rfl) : Parts (KDec.field Dec.int32 0 (fun t x => { t with PartitionIndex := x })) (TxnOffsetCommitRequestPartition28.first 0) (TxnOffsetCommitRequestPartition28.first 1) (fun r y => r = TxnOffsetCommitRequestPartition28.first 0 y))
    |>.andThen (.field Longer.int64 (fun _ => rfl) (fun _ _ => rfl) (fun _ _ => rfl) (fun _ => rfl) : Parts (KDec.field Dec.int64 0 (fun t x => { t with CommittedOffset := x })) (TxnOffsetCommitRequestPartition28.first 1) (TxnOffsetCommitRequestPartition28.first 2) (fun r y => r = TxnOffsetCommitRequestPartition28.first 1 y))
    |>.andThen (.onlyIf (.field Longer.int32 (fun _ => rfl) (fun _ _ => rfl) (fun _ _ => rfl) (fun _ => rfl)) (fun _ => rfl) : Parts (KDec.onlyIf (version ≥ 2) (KDec.field Dec.int32 0 (fun t x => { t with CommittedLeaderEpoch := x }))) (TxnOffsetCommitRequestPartition28.first 2) (TxnOffsetCommitRequestPartition28.first 3) (fun r y => r = TxnOffsetCommitRequestPartition28.first 2 y))
    |>.andThen (.field Longer.string (fun _ => rfl) (fun _ _ => rfl) (fun _ _ => rfl) (fun _ => rfl) : Parts (KDec.field Dec.string [] (fun t x => { t with CommittedMetadata := x })) (TxnOffsetCommitRequestPartition28.first 3) (TxnOffsetCommitRequestPartition28.first 4) (fun r y => r = TxnOffsetCommitRequestPartition28.first 3 y))
theorem TxnOffsetCommitRequestPartition28.filled (version : Int16) : FilledStep 18 32770 (TxnOffsetCommitRequestPartition28.decode version) :=
  ((FilledStep.field .int32)
    |>.andThen (FilledStep.field .int64)
    |>.andThen (FilledStep.onlyIf (FilledStep.field .int32))
    |>.andThen (FilledStep.field .string)).mono (by decide) (by decide)
theorem TxnOffsetCommitRequestPartition28.part_of (r y : TxnOffsetCommitRequestPartition28) (h : ((((r = TxnOffsetCommitRequestPartition28.first 0 y) ∨ (r = TxnOffsetCommitRequestPartition28.first 1 y)) ∨ (r = TxnOffsetCommitRequestPartition28.first 2 y)) ∨ (r = TxnOffsetCommitRequestPartition28.first 3 y))) : TxnOffsetCommitRequestPartition28.Part r y :=
  match h with
    | (.inl (.inl (.inl h))) => ⟨0, by decide, h⟩
    | (.inl (.inl (.inr h))) => ⟨1, by decide, h⟩
    | (.inl (.inr h)) => ⟨2, by decide, h⟩
    | (.inr h) => ⟨3, by decide, h⟩
theorem TxnOffsetCommitRequestPartition28.keeps_holds : TxnOffsetCommitRequestPartition28.keeps.Holds TxnOffsetCommitRequestPartition28.layout :=
  KeptMsg.holds TxnOffsetCommitRequestPartition28.lawful TxnOffsetCommitRequestPartition28.sameK (stop := fun v t => TxnOffsetCommitRequestPartition28.ends v t 3) (c := fun v t => TxnOffsetCommitRequestPartition28.cutAt v t 0) (fun _ _ _ => rfl) TxnOffsetCommitRequestPartition28.cutsK (c0 := TxnOffsetCommitRequestPartition28.first 0) rfl TxnOffsetCommitRequestPartition28.partsK TxnOffsetCommitRequestPartition28.part_of TxnOffsetCommitRequestPartition28.filled (by decide) (by decide)

/-- message/messages.gen.go:7447-7467 `TxnOffsetCommitRequestTopic28.Decode`, with the receiver kept -/
def TxnOffsetCommitRequestTopic28.decodeK (version : Int16) : KDec TxnOffsetCommitRequestTopic28 :=
    KDec.field Dec.string [] (fun t x => { t with Name := x }) ;|>
    KDec.fieldStructs (TxnOffsetCommitRequestPartition28.decodeK version {}) {} (fun t x => { t with Partitions := x })

/-- Where the fields of `TxnOffsetCommitRequestTopic28` end. -/
def TxnOffsetCommitRequestTopic28.ends (version : Int16) (t : TxnOffsetCommitRequestTopic28) : Nat → Nat :=
  Cut.ends 0 [Wire.string t.Name,
    Wire.array (TxnOffsetCommitRequestPartition28.wire version) t.Partitions]

/-- What is left of `t` if only its first `n` bytes are there. -/
def TxnOffsetCommitRequestTopic28.cut (version : Int16) (n : Nat) (t : TxnOffsetCommitRequestTopic28) : TxnOffsetCommitRequestTopic28 :=
  { Name := Cut.field n (t.ends version 0) t.Name [],
    Partitions := Cut.array n (t.ends version 0) (TxnOffsetCommitRequestPartition28.wire version) (fun x => x.seen version {}) {} t.Partitions }

/-- The same after the first `k` statements of `Decode`. -/
def TxnOffsetCommitRequestTopic28.cutAt (version : Int16) (t : TxnOffsetCommitRequestTopic28) (k n : Nat) : TxnOffsetCommitRequestTopic28 :=
  { Name := upto k 0 (Cut.field n (t.ends version 0) t.Name []) [],
    Partitions := upto k 1 (Cut.array n (t.ends version 0) (TxnOffsetCommitRequestPartition28.wire version) (fun x => x.seen version {}) {} t.Partitions) none }

/-- The first `k` fields of `y`, and zeros. -/
def TxnOffsetCommitRequestTopic28.first (k : Nat) (y : TxnOffsetCommitRequestTopic28) : TxnOffsetCommitRequestTopic28 :=
  { Name := upto k 0 y.Name [],
    Partitions := upto k 1 y.Partitions none }

/-- `r` is a beginning of `y`, and zeros. -/
def TxnOffsetCommitRequestTopic28.Part (r y : TxnOffsetCommitRequestTopic28) : Prop :=
  (∃ k, k < 2 ∧ r = y.first k) ∨
    Cut.begun {} (fun t => t.Partitions) (fun t x => { t with Partitions := x }) (TxnOffsetCommitRequestTopic28.first 1) r y

/-- `TxnOffsetCommitRequestTopic28` with its receiver kept. -/
def TxnOffsetCommitRequestTopic28.keeps : KeptMsg TxnOffsetCommitRequestTopic28.type := { decode := TxnOffsetCommitRequestTopic28.decodeK, cut := TxnOffsetCommitRequestTopic28.cut, Part := TxnOffsetCommitRequestTopic28.Part }

theorem TxnOffsetCommitRequestTopic28.sameK (version : Int16) : KStep (TxnOffsetCommitRequestTopic28.decodeK version) (TxnOffsetCommitRequestTopic28.decode version) :=
  (KStep.field)
    |>.andThen (KStep.structs (fun _ => rfl) (TxnOffsetCommitRequestPartition28.sameK version {}))
theorem TxnOffsetCommitRequestTopic28.cutsK (version : Int16) (t : TxnOffsetCommitRequestTopic28) (h : t.Fits version) :
    Cuts (TxnOffsetCommitRequestTopic28.decodeK version) 0 (TxnOffsetCommitRequestTopic28.wire version t) (TxnOffsetCommitRequestTopic28.ends version t 1) (TxnOffsetCommitRequestTopic28.cutAt version t 0) (TxnOffsetCommitRequestTopic28.cutAt version t 2) :=
  (.field (reads_string h.Name) (fun _ => rfl) (fun _ => rfl) : Cuts _ 0 _ (TxnOffsetCommitRequestTopic28.ends version t 0) (TxnOffsetCommitRequestTopic28.cutAt version t 0) (TxnOffsetCommitRequestTopic28.cutAt version t 1))
    |>.andThen (.structs (TxnOffsetCommitRequestPartition28.sameK version {}) (fun x hx => TxnOffsetCommitRequestPartition28.reads version x hx {}) h.Partitions (fun _ => rfl) (fun _ => rfl) : Cuts _ (TxnOffsetCommitRequestTopic28.ends version t 0) _ (TxnOffsetCommitRequestTopic28.ends version t 1) (TxnOffsetCommitRequestTopic28.cutAt version t 1) (TxnOffsetCommitRequestTopic28.cutAt version t 2))
theorem TxnOffsetCommitRequestTopic28.partsK (version : Int16) : Parts (TxnOffsetCommitRequestTopic28.decodeK version) (TxnOffsetCommitRequestTopic28.first 0) (TxnOffsetCommitRequestTopic28.first 2) (fun r y => ((r = TxnOffsetCommitRequestTopic28.first 0 y) ∨ (r = TxnOffsetCommitRequestTopic28.first 1 y ∨ Cut.begun {} (fun t => t.Partitions) (fun t x => { t with Partitions := x }) (TxnOffsetCommitRequestTopic28.first 1) r y))) :=
  (.field Longer.string (fun _ => rfl) (fun _ _ => rfl) (fun _ _ => rfl) (fun _ => rfl) : Parts (KDec.field Dec.string [] (fun t x => { t with Name := x })) (TxnOffsetCommitRequestTopic28.first 0) (TxnOffsetCommitRequestTopic28.first 1) (fun r y => r = TxnOffsetCommitRequestTopic28.first 0 y))
    |>.andThen (.structs (get := fun (t : TxnOffsetCommitRequestTopic28) => t.Partitions) ((TxnOffsetCommitRequestPartition28.partsK version).longer {}) (fun _ => rfl) (fun _ => rfl) (fun _ _ => rfl) (fun _ _ => rfl) (fun _ _ => rfl) (fun _ => rfl) (fun _ => rfl) : Parts (KDec.fieldStructs (TxnOffsetCommitRequestPartition28.decodeK version {}) {} (fun t x => { t with Partitions := x })) (TxnOffsetCommitRequestTopic28.first 1) (TxnOffsetCommitRequestTopic28.first 2) (fun r y => r = TxnOffsetCommitRequestTopic28.first 1 y ∨ Cut.begun {} (fun t => t.Partitions) (fun t x => { t with Partitions := x }) (TxnOffsetCommitRequestTopic28.first 1) r y))
theorem TxnOffsetCommitRequestTopic28.filled (version : Int16) : FilledStep 6 38654738438 (TxnOffsetCommitRequestTopic28.decode version) :=
  ((FilledStep.field .string)
    |>.andThen (FilledStep.structs (TxnOffsetCommitRequestPartition28.filled version {}))).mono (by decide) (by decide)
theorem TxnOffsetCommitRequestTopic28.part_of (r y : TxnOffsetCommitRequestTopic28) (h : ((r = TxnOffsetCommitRequestTopic28.first 0 y) ∨ (r = TxnOffsetCommitRequestTopic28.first 1 y ∨ Cut.begun {} (fun t => t.Partitions) (fun t x => { t with Partitions := x }) (TxnOffsetCommitRequestTopic28.first 1) r y))) : TxnOffsetCommitRequestTopic28.Part r y :=
  match h with
    | (.inl h) => .inl ⟨0, by decide, h⟩
    | (.inr (.inl h)) => .inl ⟨1, by decide, h⟩
    | (.inr (.inr h)) => (.inr h)
theorem TxnOffsetCommitRequestTopic28.keeps_holds : TxnOffsetCommitRequestTopic28.keeps.Holds TxnOffsetCommitRequestTopic28.layout :=
  KeptMsg.holds TxnOffsetCommitRequestTopic28.lawful TxnOffsetCommitRequestTopic28.sameK (stop := fun v t => TxnOffsetCommitRequestTopic28.ends v t 1) (c := fun v t => TxnOffsetCommitRequestTopic28.cutAt v t 0) (fun _ _ _ => rfl) TxnOffsetCommitRequestTopic28.cutsK (c0 := TxnOffsetCommitRequestTopic28.first 0) rfl TxnOffsetCommitRequestTopic28.partsK TxnOffsetCommitRequestTopic28.part_of TxnOffsetCommitRequestTopic28.filled (by decide) (by decide)

/-- message/messages.gen.go:7385-7417 `TxnOffsetCommitRequest.Decode`, with the receiver kept -/
def TxnOffsetCommitRequest.decodeK (version : Int16) : KDec TxnOffsetCommitRequest :=
    KDec.field Dec.string [] (fun t x => { t with TransactionalId := x }) ;|>
    KDec.field Dec.string [] (fun t x => { t with GroupId := x }) ;|>
    KDec.field Dec.int64 0 (fun t x => { t with ProducerId := x }) ;|>
    KDec.field Dec.int16 0 (fun t x => { t with ProducerEpoch := x }) ;|>
    KDec.fieldStructs (TxnOffsetCommitRequestTopic28.decodeK version {}) {} (fun t x => { t with Topics := x })

/-- Where the fields of `TxnOffsetCommitRequest` end. -/
def TxnOffsetCommitRequest.ends (version : Int16) (t : TxnOffsetCommitRequest) : Nat → Nat :=
  Cut.ends 0 [Wire.string t.TransactionalId,
    Wire.string t.GroupId,
    Wire.int64 t.ProducerId,
    Wire.int16 t.ProducerEpoch,
    Wire.array (TxnOffsetCommitRequestTopic28.wire version) t.Topics]

/-- What is left of `t` if only its first `n` bytes are there. -/
def TxnOffsetCommitRequest.cut (version : Int16) (n : Nat) (t : TxnOffsetCommitRequest) : TxnOffsetCommitRequest :=
  { TransactionalId := Cut.field n (t.ends version 0) t.TransactionalId [],
    GroupId := Cut.field n (t.ends version 1) t.GroupId [],
    ProducerId := Cut.field n (t.ends version 2) t.ProducerId 0,
    ProducerEpoch := Cut.field n (t.ends version 3) t.ProducerEpoch 0,
    Topics := Cut.array n (t.ends version 3) (TxnOffsetCommitRequestTopic28.wire version) (fun x => x.seen version {}) {} t.Topics }

/-- The same after the first `k` statements of `Decode`. -/
def TxnOffsetCommitRequest.cutAt (version : Int16) (t : TxnOffsetCommitRequest) (k n : Nat) : TxnOffsetCommitRequest :=
  { TransactionalId := upto k 0 (Cut.field n (t.ends version 0) t.TransactionalId []) [],
    GroupId := upto k 1 (Cut.field n (t.ends version 1) t.GroupId []) [],
    ProducerId := upto k 2 (Cut.field n (t.ends version 2) t.ProducerId 0) 0,
    ProducerEpoch := upto k 3 (Cut.field n (t.ends version 3) t.ProducerEpoch 0) 0,
    Topics := upto k 4 (Cut.array n (t.ends version 3) (TxnOffsetCommitRequestTopic28.wire version) (fun x => x.seen version {}) {} t.Topics) none }

/-- The first `k` fields of `y`, and zeros. -/
def TxnOffsetCommitRequest.first (k : Nat) (y : TxnOffsetCommitRequest) : TxnOffsetCommitRequest :=
  { TransactionalId := upto k 0 y.TransactionalId [],
    GroupId := upto k 1 y.GroupId [],
    ProducerId := upto k 2 y.ProducerId 0,
    ProducerEpoch := upto k 3 y.ProducerEpoch 0,
    Topics := upto k 4 y.Topics none }

/-- `r` is a beginning of `y`, and zeros. -/
def TxnOffsetCommitRequest.Part (r y : TxnOffsetCommitRequest) : Prop :=
  (∃ k, k < 5 ∧ r = y.first k) ∨
    Cut.begun {} (fun t => t.Topics) (fun t x => { t with Topics := x }) (TxnOffsetCommitRequest.first 4) r y

/-- `TxnOffsetCommitRequest` with its receiver kept. -/
def TxnOffsetCommitRequest.keeps : KeptMsg TxnOffsetCommitRequest.type := { decode := TxnOffsetCommitRequest.decodeK, cut := TxnOffsetCommitRequest.cut, Part := TxnOffsetCommitRequest.Part }

theorem TxnOffsetCommitRequest.sameK (version : Int16) : KStep (TxnOffsetCommitRequest.decodeK version) (TxnOffsetCommitRequest.decode version) :=
  (KStep.field)
    |>.andThen (KStep.field)
    |>.andThen (KStep.field)
    |>.andThen (KStep.field)
    |>.andThen (KStep.structs (fun _ => rfl) (TxnOffsetCommitRequestTopic28.sameK version {}))
theorem TxnOffsetCommitRequest.cutsK (version : Int16) (t : TxnOffsetCommitRequest) (h : t.Fits version) :
    Cuts (TxnOffsetCommitRequest.decodeK version) 0 (TxnOffsetCommitRequest.wire version t) (TxnOffsetCommitRequest.ends version t 4) (TxnOffsetCommitRequest.cutAt version t 0) (TxnOffsetCommitRequest.cutAt version t 5) :=
  (.field (reads_string h.TransactionalId) (fun _ => rfl) (fun _ => rfl) : Cuts _ 0 _ (TxnOffsetCommitRequest.ends version t 0) (TxnOffsetCommitRequest.cutAt version t 0) (TxnOffsetCommitRequest.cutAt version t 1))
    |>.andThen (.field (reads_string h.GroupId) (fun _ => rfl) (fun _ => rfl) : Cuts _ (TxnOffsetCommitRequest.ends version t 0) _ (TxnOffsetCommitRequest.ends version t 1) (TxnOffsetCommitRequest.cutAt version t 1) (TxnOffsetCommitRequest.cutAt version t 2))
    |>.andThen (.field (reads_int64 t.ProducerId) (fun _ => rfl) (fun _ => rfl) : Cuts _ (TxnOffsetCommitRequest.ends version t 1) _ (TxnOffsetCommitRequest.ends version t 2) (TxnOffsetCommitRequest.cutAt version t 2) (TxnOffsetCommitRequest.cutAt version t 3))
    |>.andThen (.field (reads_int16 t.ProducerEpoch) (fun _ => rfl) (fun _ => rfl) : Cuts _ (TxnOffsetCommitRequest.ends version t 2) _ (TxnOffsetCommitRequest.ends version t 3) (TxnOffsetCommitRequest.cutAt version t 3) (TxnOffsetCommitRequest.cutAt version t 4))
    |>.andThen (.structs (TxnOffsetCommitRequestTopic28.sameK version {}) (fun x hx => TxnOffsetCommitRequestTopic28.reads version x hx {}) h.Topics (fun _ => rfl) (fun _ => rfl) : Cuts _ (TxnOffsetCommitRequest.ends version t 3) _ (TxnOffsetCommitRequest.ends version t 4) (TxnOffsetCommitRequest.cutAt version t 4) (TxnOffsetCommitRequest.cutAt version t 5))
theorem TxnOffsetCommitRequest.partsK (version : Int16) : Parts (TxnOffsetCommitRequest.decodeK version) (TxnOffsetCommitRequest.first 0) (TxnOffsetCommitRequest.first 5) (fun r y => (((((r = TxnOffsetCommitRequest.first 0 y) ∨ (r = TxnOffsetCommitRequest.first 1 y)) ∨ (r = TxnOffsetCommitRequest.first 2 y)) ∨ (r = TxnOffsetCommitRequest.first 3 y)) ∨ (r = TxnOffsetCommitRequest.first 4 y ∨ Cut.begun {} (fun t => t.Topics) (fun t x => { t with Topics := x }) (TxnOffsetCommitRequest.first 4) r y))) :=
  (.field Longer.string (fun _ => rfl) (fun _ _ => rfl) (fun _ _ => rfl) (fun _ => rfl) : Parts (KDec.field Dec.string [] (fun t x => { t with TransactionalId := x })) (TxnOffsetCommitRequest.first 0) (TxnOffsetCommitRequest.first 1) (fun r y => r = TxnOffsetCommitRequest.first 0 y))
    |>.andThen (.field Longer.string (fun _ => rfl) (fun _ _ => rfl) (fun _ _ => rfl) (fun _ => rfl) : Parts (KDec.field Dec.string [] (fun t x => { t with GroupId := x })) (TxnOffsetCommitRequest.first 1) (TxnOffsetCommitRequest.first 2) (fun r y => r = TxnOffsetCommitRequest.first 1 y))
    |>.andThen (.field Longer.int64 (fun _ => rfl) (fun _ _ => rfl) (fun _ _ => rfl) (fun _ => rfl) : Parts (KDec.field Dec.int64 0 (fun t x => { t with ProducerId := x })) (TxnOffsetCommitRequest.first 2) (TxnOffsetCommitRequest.first 3) (fun r y => r = TxnOffsetCommitRequest.first 2 y))
    |>.andThen (.field Longer.int16 (fun _ => rfl) (fun _ _ => rfl) (fun _ _ => rfl) (fun _ => rfl) : Parts (KDec.field Dec.int16 0 (fun t x => { t with ProducerEpoch := x })) (TxnOffsetCommitRequest.first 3) (TxnOffsetCommitRequest.first 4) (fun r y => r = TxnOffsetCommitRequest.first 3 y))
    |>.andThen (.structs (get := fun (t : TxnOffsetCommitRequest) => t.Topics) ((TxnOffsetCommitRequestTopic28.partsK version).longer {}) (fun _ => rfl) (fun _ => rfl) (fun _ _ => rfl) (fun _ _ => rfl) (fun _ _ => rfl) (fun _ => rfl) (fun _ => rfl) : Parts (KDec.fieldStructs (TxnOffsetCommitRequestTopic28.decodeK version {}) {} (fun t x => { t with Topics := x })) (TxnOffsetCommitRequest.first 4) (TxnOffsetCommitRequest.first 5) (fun r y => r = TxnOffsetCommitRequest.first 4 y ∨ Cut.begun {} (fun t => t.Topics) (fun t x => { t with Topics := x }) (TxnOffsetCommitRequest.first 4) r y))
theorem TxnOffsetCommitRequest.filled (version : Int16) : FilledStep 18 51539640330 (TxnOffsetCommitRequest.decode version) :=
  ((FilledStep.field .string)
    |>.andThen (FilledStep.field .string)
    |>.andThen (FilledStep.field .int64)
    |>.andThen (FilledStep.field .int16)
    |>.andThen (FilledStep.structs (TxnOffsetCommitRequestTopic28.filled version {}))).mono (by decide) (by decide)
theorem TxnOffsetCommitRequest.part_of (r y : TxnOffsetCommitRequest) (h : (((((r = TxnOffsetCommitRequest.first 0 y) ∨ (r = TxnOffsetCommitRequest.first 1 y)) ∨ (r = TxnOffsetCommitRequest.first 2 y)) ∨ (r = TxnOffsetCommitRequest.first 3 y)) ∨ (r = TxnOffsetCommitRequest.first 4 y ∨ Cut.begun {} (fun t => t.Topics) (fun t x => { t with Topics := x }) (TxnOffsetCommitRequest.first 4) r y))) : TxnOffsetCommitRequest.Part r y :=
  match h with
    | (.inl (.inl (.inl (.inl h)))) => .inl ⟨0, by decide, h⟩
    | (.inl (.inl (.inl (.inr h)))) => .inl ⟨1, by decide, h⟩
    | (.inl (.inl (.inr h))) => .inl ⟨2, by decide, h⟩
    | (.inl (.inr h)) => .inl ⟨3, by decide, h⟩
    | (.inr (.inl h)) => .inl ⟨4, by decide, h⟩
    | (.inr (.inr h)) => (.inr h)
theorem TxnOffsetCommitRequest.keeps_holds : TxnOffsetCommitRequest.keeps.Holds TxnOffsetCommitRequest.layout :=
  KeptMsg.holds TxnOffsetCommitRequest.lawful TxnOffsetCommitRequest.sameK (stop := fun v t => TxnOffsetCommitRequest.ends v t 4) (c := fun v t => TxnOffsetCommitRequest.cutAt v t 0) (fun _ _ _ => rfl) TxnOffsetCommitRequest.cutsK (c0 := TxnOffsetCommitRequest.first 0) rfl TxnOffsetCommitRequest.partsK TxnOffsetCommitRequest.part_of TxnOffsetCommitRequest.filled (by decide) (by decide)

/-- message/messages.gen.go:7643-7654 `TxnOffsetCommitResponsePartition28.Decode`, with the receiver kept -/
def TxnOffsetCommitResponsePartition28.decodeK (_version : Int16) : KDec TxnOffsetCommitResponsePartition28 :=
    KDec.field Dec.int32 0 (fun t x => { t with PartitionIndex := x }) ;|>
    KDec.field Dec.int16 0 (fun t x => { t with ErrorCode := x })

/-- Where the fields of `TxnOffsetCommitResponsePartition28` end. -/
def TxnOffsetCommitResponsePartition28.ends (_version : Int16) (t : TxnOffsetCommitResponsePartition28) : Nat → Nat :=
  Cut.ends 0 [Wire.int32 t.PartitionIndex,
    Wire.int16 t.ErrorCode]

/-- What is left of `t` if only its first `n` bytes are there. -/
def TxnOffsetCommitResponsePartition28.cut (version : Int16) (n : Nat) (t : TxnOffsetCommitResponsePartition28) : TxnOffsetCommitResponsePartition28 :=
  { PartitionIndex := Cut.field n (t.ends version 0) t.PartitionIndex 0,
    ErrorCode := Cut.field n (t.ends version 1) t.ErrorCode 0 }

/-- The same after the first `k` statements of `Decode`. -/
def TxnOffsetCommitResponsePartition28.cutAt (version : Int16) (t : TxnOffsetCommitResponsePartition28) (k n : Nat) : TxnOffsetCommitResponsePartition28 :=
  { PartitionIndex := upto k 0 (Cut.field n (t.ends version 0) t.PartitionIndex 0) 0,
    ErrorCode := upto k 1 (Cut.field n (t.ends version 1) t.ErrorCode 0) 0 }

/-- The first `k` fields of `y`, and zeros. -/
def TxnOffsetCommitResponsePartition28.first (k : Nat) (y : TxnOffsetCommitResponsePartition28) : TxnOffsetCommitResponsePartition28 :=
  { PartitionIndex := upto k 0 y.PartitionIndex 0,
    ErrorCode := upto k 1 y.ErrorCode 0 }

/-- `r` is a beginning of `y`, and zeros. -/
def TxnOffsetCommitResponsePartition28.Part (r y : TxnOffsetCommitResponsePartition28) : Prop :=
  (∃ k, k < 2 ∧ r = y.first k)

/-- `TxnOffsetCommitResponsePartition28` with its receiver kept. -/
def TxnOffsetCommitResponsePartition28.keeps : KeptMsg TxnOffsetCommitResponsePartition28.type := { decode := TxnOffsetCommitResponsePartition28.decodeK, cut := TxnOffsetCommitResponsePartition28.cut, Part := TxnOffsetCommitResponsePartition28.Part }

theorem TxnOffsetCommitResponsePartition28.sameK (version : Int16) : KStep (TxnOffsetCommitResponsePartition28.decodeK version) (TxnOffsetCommitResponsePartition28.decode version) :=
  (KStep.field)
    |>.andThen (KStep.field)
theorem TxnOffsetCommitResponsePartition28.cutsK (version : Int16) (t : TxnOffsetCommitResponsePartition28) (h : t.Fits version) :
    Cuts (TxnOffsetCommitResponsePartition28.decodeK version) 0 (TxnOffsetCommitResponsePartition28.wire version t) (TxnOffsetCommitResponsePartition28.ends version t 1) (TxnOffsetCommitResponsePartition28.cutAt version t 0) (TxnOffsetCommitResponsePartition28.cutAt version t 2) :=
  (.field (reads_int32 t.PartitionIndex) (fun _ => rfl) (fun _ => rfl) : Cuts _ 0 _ (TxnOffsetCommitResponsePartition28.ends version t 0) (TxnOffsetCommitResponsePartition28.cutAt version t 0) (TxnOffsetCommitResponsePartition28.cutAt version t 1))
    |>.andThen (.field (reads_int16 t.ErrorCode) (fun _ => rfl) (fun _ => rfl) : Cuts _ (TxnOffsetCommitResponsePartition28.ends version t 0) _ (TxnOffsetCommitResponsePartition28.ends version t 1) (TxnOffsetCommitResponsePartition28.cutAt version t 1) (TxnOffsetCommitResponsePartition28.cutAt version t 2))
theorem TxnOffsetCommitResponsePartition28.partsK (version : Int16) : Parts (TxnOffsetCommitResponsePartition28.decodeK version) (TxnOffsetCommitResponsePartition28.first 0) (TxnOffsetCommitResponsePartition28.first 2) (fun r y => ((r = TxnOffsetCommitResponsePartition28.first 0 y) ∨ (r = TxnOffsetCommitResponsePartition28.first 1 y))) :=
  (.field Longer.int32 (fun _ => rfl) (fun _ _ => rfl) (fun _ _ => rfl) (fun _ => rfl) : Parts (KDec.field Dec.int32 0 (fun t x => { t with PartitionIndex := x })) (TxnOffsetCommitResponsePartition28.first 0) (TxnOffsetCommitResponsePartition28.first 1) (fun r y => r = TxnOffsetCommitResponsePartition28.first 0 y))
    |>.andThen (.field Longer.int16 (fun _ => rfl) (fun _ _ => rfl) (fun _ _ => rfl) (fun _ => rfl) : Parts (KDec.field Dec.int16 0 (fun t x => { t with ErrorCode := x })) (TxnOffsetCommitResponsePartition28.first 1) (TxnOffsetCommitResponsePartition28.first 2) (fun r y => r = TxnOffsetCommitResponsePartition28.first 1 y))
theorem TxnOffsetCommitResponsePartition28.filled (version : Int16) : FilledStep 6 6 (TxnOffsetCommitResponsePartition28.decode version) :=
  ((FilledStep.field .int32)
    |>.andThen (FilledStep.field .int16)).mono (by decide) (by decide)
theorem TxnOffsetCommitResponsePartition28.part_of (r y : TxnOffsetCommitResponsePartition28) (h : ((r = TxnOffsetCommitResponsePartition28.first 0 y) ∨ (r = TxnOffsetCommitResponsePartition28.first 1 y))) : TxnOffsetCommitResponsePartition28.Part r y :=
  match h with
    | (.inl h) => ⟨0, by decide, h⟩
    | (.inr h) => ⟨1, by decide, h⟩
theorem TxnOffsetCommitResponsePartition28.keeps_holds : TxnOffsetCommitResponsePartition28.keeps.Holds TxnOffsetCommitResponsePartition28.layout :=
  KeptMsg.holds TxnOffsetCommitResponsePartition28.lawful TxnOffsetCommitResponsePartition28.sameK (stop := fun v t => TxnOffsetCommitResponsePartition28.ends v t 1) (c := fun v t => TxnOffsetCommitResponsePartition28.cutAt v t 0) (fun _ _ _ => rfl) TxnOffsetCommitResponsePartition28.cutsK (c0 := TxnOffsetCommitResponsePartition28.first 0) rfl TxnOffsetCommitResponsePartition28.partsK TxnOffsetCommitResponsePartition28.part_of TxnOffsetCommitResponsePartition28.filled (by decide) (by decide)

/-- message/messages.gen.go:7601-7621 `TxnOffsetCommitResponseTopic28.Decode`, with the receiver kept -/
def TxnOffsetCommitResponseTopic28.decodeK (version : Int16) : KDec TxnOffsetCommitResponseTopic28 :=
    KDec.field Dec.string [] (fun t x => { t with Name := x }) ;|>
    KDec.fieldStructs (TxnOffsetCommitResponsePartition28.decodeK version {}) {} (fun t x => { t with Partitions := x })

/-- Where the fields of `TxnOffsetCommitResponseTopic28` end. -/
def TxnOffsetCommitResponseTopic28.ends (version : Int16) (t : TxnOffsetCommitResponseTopic28) : Nat → Nat :=
  Cut.ends 0 [Wire.string t.Name,
    Wire.array (TxnOffsetCommitResponsePartition28.wire version) t.Partitions]

/-- What is left of `t` if only its first `n` bytes are there. -/
def TxnOffsetCommitResponseTopic28.cut (version : Int16) (n : Nat) (t : TxnOffsetCommitResponseTopic28) : TxnOffsetCommitResponseTopic28 :=
  { Name := Cut.field n (t.ends version 0) t.Name [],
    Partitions := Cut.array n (t.ends version 0) (TxnOffsetCommitResponsePartition28.wire version) (fun x => x.seen version {}) {} t.Partitions }

/-- The same after the first `k` statements of `Decode`. -/
def TxnOffsetCommitResponseTopic28.cutAt (version : Int16) (t : TxnOffsetCommitResponseTopic28) (k n : Nat) : TxnOffsetCommitResponseTopic28 :=
  { Name := upto k 0 (Cut.field n (t.ends version 0) t.Name []) [],
    Partitions := upto k 1 (Cut.array n (t.ends version 0) (TxnOffsetCommitResponsePartition28.wire version) (fun x => x.seen version {}) {} t.Partitions) none }

/-- The first `k` fields of `y`, and zeros. -/
def TxnOffsetCommitResponseTopic28.first (k : Nat) (y : TxnOffsetCommitResponseTopic28) : TxnOffsetCommitResponseTopic28 :=
  { Name := upto k 0 y.Name [],
    Partitions := upto k 1 y.Partitions none }

/-- `r` is a beginning of `y`, and zeros. -/
def TxnOffsetCommitResponseTopic28.Part (r y : TxnOffsetCommitResponseTopic28) : Prop :=
  (∃ k, k < 2 ∧ r = y.first k) ∨
    Cut.begun {} (fun t => t.Partitions) (fun t x => { t with Partitions := x }) (TxnOffsetCommitResponseTopic28.first 1) r y

/-- `TxnOffsetCommitResponseTopic28` with its receiver kept. -/
def TxnOffsetCommitResponseTopic28.keeps : KeptMsg TxnOffsetCommitResponseTopic28.type := { decode := TxnOffsetCommitResponseTopic28.decodeK, cut := TxnOffsetCommitResponseTopic28.cut, Part := TxnOffsetCommitResponseTopic28.Part }

theorem TxnOffsetCommitResponseTopic28.sameK (version : Int16) : KStep (TxnOffsetCommitResponseTopic28.decodeK version) (TxnOffsetCommitResponseTopic28.decode version) :=
  (KStep.field)
    |>.andThen (KStep.structs (fun _ => rfl) (TxnOffsetCommitResponsePartition28.sameK version {}))
theorem TxnOffsetCommitResponseTopic28.cutsK (version : Int16) (t : TxnOffsetCommitResponseTopic28) (h : t.Fits version) :
    Cuts (TxnOffsetCommitResponseTopic28.decodeK version) 0 (TxnOffsetCommitResponseTopic28.wire version t) (TxnOffsetCommitResponseTopic28.ends version t 1) (TxnOffsetCommitResponseTopic28.cutAt version t 0) (TxnOffsetCommitResponseTopic28.cutAt version t 2) :=
  (.field (reads_string h.Name) (fun _ => rfl) (fun _ => rfl) : Cuts _ 0 _ (TxnOffsetCommitResponseTopic28.ends version t 0) (TxnOffsetCommitResponseTopic28.cutAt version t 0) (TxnOffsetCommitResponseTopic28.cutAt version t 1))
    |>.andThen (.structs (TxnOffsetCommitResponsePartition28.sameK version {}) (fun x hx => TxnOffsetCommitResponsePartition28.reads version x hx {}) h.Partitions (fun _ => rfl) (fun _ => rfl) : Cuts _ (TxnOffsetCommitResponseTopic28.ends version t 0) _ (TxnOffsetCommitResponseTopic28.ends version t 1) (TxnOffsetCommitResponseTopic28.cutAt version t 1) (TxnOffsetCommitResponseTopic28.cutAt version t 2))
theorem TxnOffsetCommitResponseTopic28.partsK (version : Int16) : Parts (TxnOffsetCommitResponseTopic28.decodeK version) (TxnOffsetCommitResponseTopic28.first 0) (TxnOffsetCommitResponseTopic28.first 2) (fun r y => ((r = TxnOffsetCommitResponseTopic28.first 0 y) ∨ (r = TxnOffsetCommitResponseTopic28.first 1 y ∨ Cut.begun {} (fun t => t.Partitions) (fun t x => { t with Partitions := x }) (TxnOffsetCommitResponseTopic28.first 1) r y))) :=
  (.field Longer.string (fun _ => rfl) (fun _ _ => rfl) (fun _ _ => rfl) (fun _ => rfl) : Parts (KDec.field Dec.string [] (fun t x => { t with Name := x })) (TxnOffsetCommitResponseTopic28.first 0) (TxnOffsetCommitResponseTopic28.first 1) (fun r y => r = TxnOffsetCommitResponseTopic28.first 0 y))
    |>.andThen (.structs (get := fun (t : TxnOffsetCommitResponseTopic28) => t.Partitions) ((TxnOffsetCommitResponsePartition28.partsK version).longer {}) (fun _ => rfl) (fun _ => rfl) (fun _ _ => rfl) (fun _ _ => rfl) (fun _ _ => rfl) (fun _ => rfl) (fun _ => rfl) : Parts (KDec.fieldStructs (TxnOffsetCommitResponsePartition28.decodeK version {}) {} (fun t x => { t with Partitions := x })) (TxnOffsetCommitResponseTopic28.first 1) (TxnOffsetCommitResponseTopic28.first 2) (fun r y => r = TxnOffsetCommitResponseTopic28.first 1 y ∨ Cut.begun {} (fun t => t.Partitions) (fun t x => { t with Partitions := x }) (TxnOffsetCommitResponseTopic28.first 1) r y))
theorem TxnOffsetCommitResponseTopic28.filled (version : Int16) : FilledStep 6 12884901898 (TxnOffsetCommitResponseTopic28.decode version) :=
  ((FilledStep.field .string)
    |>.andThen (FilledStep.structs (TxnOffsetCommitResponsePartition28.filled version {}))).mono (by decide) (by decide)
theorem TxnOffsetCommitResponseTopic28.part_of (r y : TxnOffsetCommitResponseTopic28) (h : ((r = TxnOffsetCommitResponseTopic28.first 0 y) ∨ (r = TxnOffsetCommitResponseTopic28.first 1 y ∨ Cut.begun {} (fun t => t.Partitions) (fun t x => { t with Partitions := x }) (TxnOffsetCommitResponseTopic28.first 1) r y))) : TxnOffsetCommitResponseTopic28.Part r y :=
  match h with
    | (.inl h) => .inl ⟨0, by decide, h⟩
    | (.inr (.inl h)) => .inl ⟨1, by decide, h⟩
    | (.inr (.inr h)) => (.inr h)
theorem TxnOffsetCommitResponseTopic28.keeps_holds : TxnOffsetCommitResponseTopic28.keeps.Holds TxnOffsetCommitResponseTopic28.layout :=
  KeptMsg.holds TxnOffsetCommitResponseTopic28.lawful TxnOffsetCommitResponseTopic28.sameK (stop := fun v t => TxnOffsetCommitResponseTopic28.ends v t 1) (c := fun v t => TxnOffsetCommitResponseTopic28.cutAt v t 0) (fun _ _ _ => rfl) TxnOffsetCommitResponseTopic28.cutsK (c0 := TxnOffsetCommitResponseTopic28.first 0) rfl TxnOffsetCommitResponseTopic28.partsK TxnOffsetCommitResponseTopic28.part_of TxnOffsetCommitResponseTopic28.filled (by decide) (by decide)

/-- message/messages.gen.go:7551-7571 `TxnOffsetCommitResponse.Decode`, with the receiver kept -/
def TxnOffsetCommitResponse.decodeK (version : Int16) : KDec TxnOffsetCommitResponse :=
    KDec.field Dec.int32 0 (fun t x => { t with ThrottleTimeMs := x }) ;|>
    KDec.fieldStructs (TxnOffsetCommitResponseTopic28.decodeK version {}) {} (fun t x => { t with Topics := x })

/-- Where the fields of `TxnOffsetCommitResponse` end. -/
def TxnOffsetCommitResponse.ends (version : Int16) (t : TxnOffsetCommitResponse) : Nat → Nat :=
  Cut.ends 0 [Wire.int32 t.ThrottleTimeMs,
    Wire.array (TxnOffsetCommitResponseTopic28.wire version) t.Topics]

/-- What is left of `t` if only its first `n` bytes are there. -/
def TxnOffsetCommitResponse.cut (version : Int16) (n : Nat) (t : TxnOffsetCommitResponse) : TxnOffsetCommitResponse :=
  { ThrottleTimeMs := Cut.field n (t.ends version 0) t.ThrottleTimeMs 0,
    Topics := Cut.array n (t.ends version 0) (TxnOffsetCommitResponseTopic28.wire version) (fun x => x.seen version {}) {} t.Topics }

/-- The same after the first `k` statements of `Decode`. -/
def TxnOffsetCommitResponse.cutAt (version : Int16) (t : TxnOffsetCommitResponse) (k n : Nat) : TxnOffsetCommitResponse :=
  { ThrottleTimeMs := upto k 0 (Cut.field n (t.ends version 0) t.ThrottleTimeMs 0) 0,
    Topics := upto k 1 (Cut.array n (t.ends version 0) (TxnOffsetCommitResponseTopic28.wire version) (fun x => x.seen version {}) {} t.Topics) none }

/-- The first `k` fields of `y`, and zeros. -/
def TxnOffsetCommitResponse.first (k : Nat) (y : TxnOffsetCommitResponse) : TxnOffsetCommitResponse :=
  { ThrottleTimeMs := upto k 0 y.ThrottleTimeMs 0,
    Topics := upto k 1 y.Topics none }

/-- `r` is a beginning of `y`, and zeros. -/
def TxnOffsetCommitResponse.Part (r y : TxnOffsetCommitResponse) : Prop :=
  (∃ k, k < 2 ∧ r = y.first k) ∨
    Cut.begun {} (fun t => t.Topics) (fun t x => { t with Topics := x }) (TxnOffsetCommitResponse.first 1) r y

/-- `TxnOffsetCommitResponse` with its receiver kept. -/
def TxnOffsetCommitResponse.keeps : KeptMsg TxnOffsetCommitResponse.type := { decode := TxnOffsetCommitResponse.decodeK, cut := TxnOffsetCommitResponse.cut, Part := TxnOffsetCommitResponse.Part }

theorem TxnOffsetCommitResponse.sameK (version : Int16) : KStep (TxnOffsetCommitResponse.decodeK version) (TxnOffsetCommitResponse.decode version) :=
  (KStep.field)
    |>.andThen (KStep.structs (fun _ => rfl) (TxnOffsetCommitResponseTopic28.sameK version {}))
theorem TxnOffsetCommitResponse.cutsK (version : Int16) (t : TxnOffsetCommitResponse) (h : t.Fits version) :
    Cuts (TxnOffsetCommitResponse.decodeK version) 0 (TxnOffsetCommitResponse.wire version t) (TxnOffsetCommitResponse.ends version t 1) (TxnOffsetCommitResponse.cutAt version t 0) (TxnOffsetCommitResponse.cutAt version t 2) :=
  (.field (reads_int32 t.ThrottleTimeMs) (fun _ => rfl) (fun _ => rfl) : Cuts _ 0 _ (TxnOffsetCommitResponse.ends version t 0) (TxnOffsetCommitResponse.cutAt version t 0) (TxnOffsetCommitResponse.cutAt version t 1))
    |>.andThen (.structs (TxnOffsetCommitResponseTopic28.sameK version {}) (fun x hx => TxnOffsetCommitResponseTopic28.reads version x hx {}) h.Topics (fun _ => rfl) (fun _ => rfl) : Cuts _ (TxnOffsetCommitResponse.ends version t 0) _ (TxnOffsetCommitResponse.ends version t 1) (TxnOffsetCommitResponse.cutAt version t 1) (TxnOffsetCommitResponse.cutAt version t 2))
theorem TxnOffsetCommitResponse.partsK (version : Int16) : Parts (TxnOffsetCommitResponse.decodeK version) (TxnOffsetCommitResponse.first 0) (TxnOffsetCommitResponse.first 2) (fun r y => ((r = TxnOffsetCommitResponse.first 0 y) ∨ (r = TxnOffsetCommitResponse.first 1 y ∨ Cut.begun {} (fun t => t.Topics) (fun t x => { t with Topics := x }) (TxnOffsetCommitResponse.first 1) r y))) :=
  (.field Longer.int32 (fun _ => rfl) (fun _ _ => rfl) (fun _ _ => rfl) (fun _ => rfl) : Parts (KDec.field Dec.int32 0 (fun t x => { t with ThrottleTimeMs := x })) (TxnOffsetCommitResponse.first 0) (TxnOffsetCommitResponse.first 1) (fun r y => r = TxnOffsetCommitResponse.first 0 y))
    |>.andThen (.structs (get := fun (t : TxnOffsetCommitResponse) => t.Topics) ((TxnOffsetCommitResponseTopic28.partsK version).longer {}) (fun _ => rfl) (fun _ => rfl) (fun _ _ => rfl) (fun _ _ => rfl) (fun _ _ => rfl) (fun _ => rfl) (fun _ => rfl) : Parts (KDec.fieldStructs (TxnOffsetCommitResponseTopic28.decodeK version {}) {} (fun t x => { t with Topics := x })) (TxnOffsetCommitResponse.first 1) (TxnOffsetCommitResponse.first 2) (fun r y => r = TxnOffsetCommitResponse.first 1 y ∨ Cut.begun {} (fun t => t.Topics) (fun t x => { t with Topics := x }) (TxnOffsetCommitResponse.first 1) r y))
theorem TxnOffsetCommitResponse.filled (version : Int16) : FilledStep 8 25769803790 (TxnOffsetCommitResponse.decode version) :=
  ((FilledStep.field .int32)
    |>.andThen (FilledStep.structs (TxnOffsetCommitResponseTopic28.filled version {}))).mono (by decide) (by decide)
theorem TxnOffsetCommitResponse.part_of (r y : TxnOffsetCommitResponse) (h : ((r = TxnOffsetCommitResponse.first 0 y) ∨ (r = TxnOffsetCommitResponse.first 1 y ∨ Cut.begun {} (fun t => t.Topics) (fun t x => { t with Topics := x }) (TxnOffsetCommitResponse.first 1) r y))) : TxnOffsetCommitResponse.Part r y :=
  match h with
    | (.inl h) => .inl ⟨0, by decide, h⟩
    | (.inr (.inl h)) => .inl ⟨1, by decide, h⟩
    | (.inr (.inr h)) => (.inr h)
theorem TxnOffsetCommitResponse.keeps_holds : TxnOffsetCommitResponse.keeps.Holds TxnOffsetCommitResponse.layout :=
  KeptMsg.holds TxnOffsetCommitResponse.lawful TxnOffsetCommitResponse.sameK (stop := fun v t => TxnOffsetCommitResponse.ends v t 1) (c := fun v t => TxnOffsetCommitResponse.cutAt v t 0) (fun _ _ _ => rfl) TxnOffsetCommitResponse.cutsK (c0 := TxnOffsetCommitResponse.first 0) rfl TxnOffsetCommitResponse.partsK TxnOffsetCommitResponse.part_of TxnOffsetCommitResponse.filled (by decide) (by decide)

/-- The structures of the TxnOffsetCommit messages. -/
def keptTxnOffsetCommit : List (Σ (M : MsgType) (_ : Layout M), KeptMsg M) :=
  [⟨TxnOffsetCommitRequest.type, TxnOffsetCommitRequest.layout, TxnOffsetCommitRequest.keeps⟩,
   ⟨TxnOffsetCommitRequestTopic28.type, TxnOffsetCommitRequestTopic28.layout, TxnOffsetCommitRequestTopic28.keeps⟩,
   ⟨TxnOffsetCommitRequestPartition28.type, TxnOffsetCommitRequestPartition28.layout, TxnOffsetCommitRequestPartition28.keeps⟩,
   ⟨TxnOffsetCommitResponse.type, TxnOffsetCommitResponse.layout, TxnOffsetCommitResponse.keeps⟩,
   ⟨TxnOffsetCommitResponseTopic28.type, TxnOffsetCommitResponseTopic28.layout, TxnOffsetCommitResponseTopic28.keeps⟩,
   ⟨TxnOffsetCommitResponsePartition28.type, TxnOffsetCommitResponsePartition28.layout, TxnOffsetCommitResponsePartition28.keeps⟩]
theorem keptTxnOffsetCommit_holds : ∀ p ∈ keptTxnOffsetCommit, p.2.2.Holds p.2.1 := by
  unfold keptTxnOffsetCommit
  simp only [List.forall_mem_cons]
  exact ⟨TxnOffsetCommitRequest.keeps_holds, TxnOffsetCommitRequestTopic28.keeps_holds, TxnOffsetCommitRequestPartition28.keeps_holds, TxnOffsetCommitResponse.keeps_holds, TxnOffsetCommitResponseTopic28.keeps_holds, TxnOffsetCommitResponsePartition28.keeps_holds, fun _ h => absurd h (by simp)⟩

end Kafka.Msg
