import Verif.Message.KeptLemmas
import Verif.Gen.Proof.OffsetCommit
/-!
Generated by tools/gen_messages.py: what is in the OffsetCommit messages after an error.
-/
set_option linter.unusedVariables false
namespace Kafka.Msg

/-- message/messages.gen.go:3470-3491 `OffsetCommitRequestPartition8.Decode`, with the receiver kept -/
def OffsetCommitRequestPartition8.decodeK (version : Int16) : KDec OffsetCommitRequestPartition8 :=
    KDec.field Dec.int32 0 (fun t x => { t with PartitionIndex := x }) ;|>
    KDec.field Dec.int64 0 (fun t x => { t with CommittedOffset := x }) ;|>
    KDec.onlyIf (version ≥ 6) (KDec.field Dec.int32 0 (fun t x => { t with CommittedLeaderEpoch := x })) ;|>
    KDec.field Dec.string [] (fun t x => { t with CommittedMetadata := x })

/-- Where the fields of `OffsetCommitRequestPartition8` end. -/
def OffsetCommitRequestPartition8.ends (version : Int16) (t : OffsetCommitRequestPartition8) : Nat → Nat :=
  Cut.ends 0 [Wire.int32 t.PartitionIndex,
    Wire.int64 t.CommittedOffset,
    Wire.when (version ≥ 6) (Wire.int32 t.CommittedLeaderEpoch),
    Wire.string t.CommittedMetadata]

/-- What is left of `t` if only its first `n` bytes are there. -/
def OffsetCommitRequestPartition8.cut (version : Int16) (n : Nat) (t : OffsetCommitRequestPartition8) : OffsetCommitRequestPartition8 :=
  { PartitionIndex := Cut.field n (t.ends version 0) t.PartitionIndex 0,
    CommittedOffset := Cut.field n (t.ends version 1) t.CommittedOffset 0,
    CommittedLeaderEpoch := Cut.gate (version ≥ 6) (Cut.field n (t.ends version 2) t.CommittedLeaderEpoch 0) 0,
    CommittedMetadata := Cut.field n (t.ends version 3) t.CommittedMetadata [] }

/-- The same after the first `k` statements of `Decode`. -/
def OffsetCommitRequestPartition8.cutAt (version : Int16) (t : OffsetCommitRequestPartition8) (k n : Nat) : OffsetCommitRequestPartition8 :=
  { PartitionIndex := upto k 0 (Cut.field n (t.ends version 0) t.PartitionIndex 0) 0,
    CommittedOffset := upto k 1 (Cut.field n (t.ends version 1) t.CommittedOffset 0) 0,
    CommittedLeaderEpoch := upto k 2 (Cut.gate (version ≥ 6) (Cut.field n (t.ends version 2) t.CommittedLeaderEpoch 0) 0) 0,
    CommittedMetadata := upto k 3 (Cut.field n (t.ends version 3) t.CommittedMetadata []) [] }

/-- The first `k` fields of `y`, and zeros. -/
def OffsetCommitRequestPartition8.first (k : Nat) (y : OffsetCommitRequestPartition8) : OffsetCommitRequestPartition8 :=
  { PartitionIndex := upto k 0 y.PartitionIndex 0,
    CommittedOffset := upto k 1 y.CommittedOffset 0,
    CommittedLeaderEpoch := upto k 2 y.CommittedLeaderEpoch 0,
    CommittedMetadata := upto k 3 y.CommittedMetadata [] }

/-- `r` is a beginning of `y`, and zeros. -/
def OffsetCommitRequestPartition8.Part (r y : OffsetCommitRequestPartition8) : Prop :=
  (∃ k, k < 4 ∧ r = y.first k)

/-- `OffsetCommitRequestPartition8` with its receiver kept. -/
def OffsetCommitRequestPartition8.keeps : KeptMsg OffsetCommitRequestPartition8.type := { decode := OffsetCommitRequestPartition8.decodeK, cut := OffsetCommitRequestPartition8.cut, Part := OffsetCommitRequestPartition8.Part }

theorem OffsetCommitRequestPartition8.sameK (version : Int16) : KStep (OffsetCommitRequestPartition8.decodeK version) (OffsetCommitRequestPartition8.decode version) :=
  (KStep.field)
    |>.andThen (KStep.field)
    |>.andThen (KStep.onlyIf (KStep.field))
    |>.andThen (KStep.field)
theorem OffsetCommitRequestPartition8.cutsK (version : Int16) (t : OffsetCommitRequestPartition8) (h : t.Fits version) :
    Cuts (OffsetCommitRequestPartition8.decodeK version) 0 (OffsetCommitRequestPartition8.wire version t) (OffsetCommitRequestPartition8.ends version t 3) (OffsetCommitRequestPartition8.cutAt version t 0) (OffsetCommitRequestPartition8.cutAt version t 4) :=
  (.field (reads_int32 t.PartitionIndex) (fun _ => rfl) (fun _ => rfl) : Cuts _ 0 _ (OffsetCommitRequestPartition8.ends version t 0) (OffsetCommitRequestPartition8.cutAt version t 0) (OffsetCommitRequestPartition8.cutAt version t 1))
    |>.andThen (.field (reads_int64 t.CommittedOffset) (fun _ => rfl) (fun _ => rfl) : Cuts _ (OffsetCommitRequestPartition8.ends version t 0) _ (OffsetCommitRequestPartition8.ends version t 1) (OffsetCommitRequestPartition8.cutAt version t 1) (OffsetCommitRequestPartition8.cutAt version t 2))
    |>.andThen (.optField (fun _ => reads_int32 t.CommittedLeaderEpoch) (fun _ => rfl) (fun _ => rfl) : Cuts _ (OffsetCommitRequestPartition8.ends version t 1) _ (OffsetCommitRequestPartition8.ends version t 2) (OffsetCommitRequestPartition8.cutAt version t 2) (OffsetCommitRequestPartition8.cutAt version t 3))
    |>.andThen (.field (reads_string h.CommittedMetadata) (fun _ => rfl) (fun _ => rfl) : Cuts _ (OffsetCommitRequestPartition8.ends version t 2) _ (OffsetCommitRequestPartition8.ends version t 3) (OffsetCommitRequestPartition8.cutAt version t 3) (OffsetCommitRequestPartition8.cutAt version t 4))
theorem OffsetCommitRequestPartition8.partsK (version : Int16) : Parts (OffsetCommitRequestPartition8.decodeK version) (OffsetCommitRequestPartition8.first 0) (OffsetCommitRequestPartition8.first 4) (fun r y => ((((r = OffsetCommitRequestPartition8.first 0 y) ∨ (r = OffsetCommitRequestPartition8.first 1 y)) ∨ (r = OffsetCommitRequestPartition8.first 2 y)) ∨ (r = OffsetCommitRequestPartition8.first 3 y))) :=
  (.field Longer.int32 (fun _ => rfl) (fun _ _ => rfl) (fun _ _ => rfl) (fun _ => rfl) : Parts (KDec.field Dec.int32 0 (fun t x => { t with PartitionIndex := x })) (OffsetCommitRequestPartition8.first 0) (OffsetCommitRequestPartition8.first 1) (fun r y => r = OffsetCommitRequestPartition8.first 0 y))
    |>.andThen (.field Longer.int64 (fun _ => rfl) (fun _ _ => rfl) (fun _ _ => rfl) (fun _ => rfl) : Parts (KDec.field Dec.int64 0 (fun t x => { t with CommittedOffset := x })) (OffsetCommitRequestPartition8.first 1) (OffsetCommitRequestPartition8.first 2) (fun r y => r = OffsetCommitRequestPartition8.first 1 y))
    |>.andThen (.onlyIf (.field Longer.int32 (fun _ => rfl) (fun _ _ => rfl) (fun _ _ => rfl) (fun _ => rfl)) (fun _ => rfl) : Parts (KDec.onlyIf (version ≥ 6) (KDec.field Dec.int32 0 (fun t x => { t with CommittedLeaderEpoch := x }))) (OffsetCommitRequestPartition8.first 2) (OffsetCommitRequestPartition8.first 3) (fun r y => r = OffsetCommitRequestPartition8.first 2 y))
    |>.andThen (.field Longer.string (fun _ => rfl) (fun _ _ => rfl) (fun _ _ => rfl) (fun _ => rfl) : Parts (KDec.field Dec.string [] (fun t x => { t with CommittedMetadata := x })) (OffsetCommitRequestPartition8.first 3) (OffsetCommitRequestPartition8.first 4) (fun r y => r = OffsetCommitRequestPartition8.first 3 y))
theorem OffsetCommitRequestPartition8.filled (version : Int16) : FilledStep 18 32770 (OffsetCommitRequestPartition8.decode version) :=
  ((FilledStep.field .int32)
    |>.andThen (FilledStep.field .int64)
    |>.andThen (FilledStep.onlyIf (FilledStep.field .int32))
    |>.andThen (FilledStep.field .string)).mono (by decide) (by decide)
theorem OffsetCommitRequestPartition8.part_of (r y : OffsetCommitRequestPartition8) (h : ((((r = OffsetCommitRequestPartition8.first 0 y) ∨ (r = OffsetCommitRequestPartition8.first 1 y)) ∨ (r = OffsetCommitRequestPartition8.first 2 y)) ∨ (r = OffsetCommitRequestPartition8.first 3 y))) : OffsetCommitRequestPartition8.Part r y :=
  match h with
    | (.inl (.inl (.inl h))) => ⟨0, by decide, h⟩
    | (.inl (.inl (.inr h))) => ⟨1, by decide, h⟩
    | (.inl (.inr h)) => ⟨2, by decide, h⟩
    | (.inr h) => ⟨3, by decide, h⟩
theorem OffsetCommitRequestPartition8.keeps_holds : OffsetCommitRequestPartition8.keeps.Holds OffsetCommitRequestPartition8.layout :=
  KeptMsg.holds OffsetCommitRequestPartition8.lawful OffsetCommitRequestPartition8.sameK (stop := fun v t => OffsetCommitRequestPartition8.ends v t 3) (c := fun v t => OffsetCommitRequestPartition8.cutAt v t 0) (fun _ _ _ => rfl) OffsetCommitRequestPartition8.cutsK (c0 := OffsetCommitRequestPartition8.first 0) rfl OffsetCommitRequestPartition8.partsK OffsetCommitRequestPartition8.part_of OffsetCommitRequestPartition8.filled (by decide) (by decide)

/-- message/messages.gen.go:3418-3438 `OffsetCommitRequestTopic8.Decode`, with the receiver kept -/
def OffsetCommitRequestTopic8.decodeK (version : Int16) : KDec OffsetCommitRequestTopic8 :=
    KDec.field Dec.string [] (fun t x => { t with Name := x }) ;|>
    KDec.fieldStructs (OffsetCommitRequestPartition8.decodeK version {}) {} (fun t x => { t with Partitions := x })

/-- Where the fields of `OffsetCommitRequestTopic8` end. -/
def OffsetCommitRequestTopic8.ends (version : Int16) (t : OffsetCommitRequestTopic8) : Nat → Nat :=
  Cut.ends 0 [Wire.string t.Name,
    Wire.array (OffsetCommitRequestPartition8.wire version) t.Partitions]

/-- What is left of `t` if only its first `n` bytes are there. -/
def OffsetCommitRequestTopic8.cut (version : Int16) (n : Nat) (t : OffsetCommitRequestTopic8) : OffsetCommitRequestTopic8 :=
  { Name := Cut.field n (t.ends version 0) t.Name [],
    Partitions := Cut.array n (t.ends version 0) (OffsetCommitRequestPartition8.wire version) (fun x => x.seen version {}) {} t.Partitions }

/-- The same after the first `k` statements of `Decode`. -/
def OffsetCommitRequestTopic8.cutAt (version : Int16) (t : OffsetCommitRequestTopic8) (k n : Nat) : OffsetCommitRequestTopic8 :=
  { Name := upto k 0 (Cut.field n (t.ends version 0) t.Name []) [],
    Partitions := upto k 1 (Cut.array n (t.ends version 0) (OffsetCommitRequestPartition8.wire version) (fun x => x.seen version {}) {} t.Partitions) none }

/-- The first `k` fields of `y`, and zeros. -/
def OffsetCommitRequestTopic8.first (k : Nat) (y : OffsetCommitRequestTopic8) : OffsetCommitRequestTopic8 :=
  { Name := upto k 0 y.Name [],
    Partitions := upto k 1 y.Partitions none }

/-- `r` is a beginning of `y`, and zeros. -/
def OffsetCommitRequestTopic8.Part (r y : OffsetCommitRequestTopic8) : Prop :=
  (∃ k, k < 2 ∧ r = y.first k) ∨
    Cut.begun {} (fun t => t.Partitions) (fun t x => { t with Partitions := x }) (OffsetCommitRequestTopic8.first 1) r y

/-- `OffsetCommitRequestTopic8` with its receiver kept. -/
def OffsetCommitRequestTopic8.keeps : KeptMsg OffsetCommitRequestTopic8.type := { decode := OffsetCommitRequestTopic8.decodeK, cut := OffsetCommitRequestTopic8.cut, Part := OffsetCommitRequestTopic8.Part }

theorem OffsetCommitRequestTopic8.sameK (version : Int16) : KStep (OffsetCommitRequestTopic8.decodeK version) (OffsetCommitRequestTopic8.decode version) :=
  (KStep.field)
    |>.andThen (KStep.structs (fun _ => rfl) (OffsetCommitRequestPartition8.sameK version {}))
theorem OffsetCommitRequestTopic8.cutsK (version : Int16) (t : OffsetCommitRequestTopic8) (h : t.Fits version) :
    Cuts (OffsetCommitRequestTopic8.decodeK version) 0 (OffsetCommitRequestTopic8.wire version t) (OffsetCommitRequestTopic8.ends version t 1) (OffsetCommitRequestTopic8.cutAt version t 0) (OffsetCommitRequestTopic8.cutAt version t 2) :=
  (.field (reads_string h.Name) (fun _ => rfl) (fun _ => rfl) : Cuts _ 0 _ (OffsetCommitRequestTopic8.ends version t 0) (OffsetCommitRequestTopic8.cutAt version t 0) (OffsetCommitRequestTopic8.cutAt version t 1))
    |>.andThen (.structs (OffsetCommitRequestPartition8.sameK version {}) (fun x hx => OffsetCommitRequestPartition8.reads version x hx {}) h.Partitions (fun _ => rfl) (fun _ => rfl) : Cuts _ (OffsetCommitRequestTopic8.ends version t 0) _ (OffsetCommitRequestTopic8.ends version t 1) (OffsetCommitRequestTopic8.cutAt version t 1) (OffsetCommitRequestTopic8.cutAt version t 2))
theorem OffsetCommitRequestTopic8.partsK (version : Int16) : Parts (OffsetCommitRequestTopic8.decodeK version) (OffsetCommitRequestTopic8.first 0) (OffsetCommitRequestTopic8.first 2) (fun r y => ((r = OffsetCommitRequestTopic8.first 0 y) ∨ (r = OffsetCommitRequestTopic8.first 1 y ∨ Cut.begun {} (fun t => t.Partitions) (fun t x => { t with Partitions := x }) (OffsetCommitRequestTopic8.first 1) r y))) :=
  (.field Longer.string (fun _ => rfl) (fun _ _ => rfl) (fun _ _ => rfl) (fun _ => rfl) : Parts (KDec.field Dec.string [] (fun t x => { t with Name := x })) (OffsetCommitRequestTopic8.first 0) (OffsetCommitRequestTopic8.first 1) (fun r y => r = OffsetCommitRequestTopic8.first 0 y))
    |>.andThen (.structs (get := fun (t : OffsetCommitRequestTopic8) => t.Partitions) ((OffsetCommitRequestPartition8.partsK version).longer {}) (fun _ => rfl) (fun _ => rfl) (fun _ _ => rfl) (fun _ _ => rfl) (fun _ _ => rfl) (fun _ => rfl) (fun _ => rfl) : Parts (KDec.fieldStructs (OffsetCommitRequestPartition8.decodeK version {}) {} (fun t x => { t with Partitions := x })) (OffsetCommitRequestTopic8.first 1) (OffsetCommitRequestTopic8.first 2) (fun r y => r = OffsetCommitRequestTopic8.first 1 y ∨ Cut.begun {} (fun t => t.Partitions) (fun t x => { t with Partitions := x }) (OffsetCommitRequestTopic8.first 1) r y))
theorem OffsetCommitRequestTopic8.filled (version : Int16) : FilledStep 6 38654738438 (OffsetCommitRequestTopic8.decode version) :=
  ((FilledStep.field .string)
    |>.andThen (FilledStep.structs (OffsetCommitRequestPartition8.filled version {}))).mono (by decide) (by decide)
theorem OffsetCommitRequestTopic8.part_of (r y : OffsetCommitRequestTopic8) (h : ((r = OffsetCommitRequestTopic8.first 0 y) ∨ (r = OffsetCommitRequestTopic8.first 1 y ∨ Cut.begun {} (fun t => t.Partitions) (fun t x => { t with Partitions := x }) (OffsetCommitRequestTopic8.first 1) r y))) : OffsetCommitRequestTopic8.Part r y :=
  match h with
    | (.inl h) => .inl ⟨0, by decide, h⟩
    | (.inr (.inl h)) => .inl ⟨1, by decide, h⟩
    | (.inr (.inr h)) => (.inr h)
theorem OffsetCommitRequestTopic8.keeps_holds : OffsetCommitRequestTopic8.keeps.Holds OffsetCommitRequestTopic8.layout :=
  KeptMsg.holds OffsetCommitRequestTopic8.lawful OffsetCommitRequestTopic8.sameK (stop := fun v t => OffsetCommitRequestTopic8.ends v t 1) (c := fun v t => OffsetCommitRequestTopic8.cutAt v t 0) (fun _ _ _ => rfl) OffsetCommitRequestTopic8.cutsK (c0 := OffsetCommitRequestTopic8.first 0) rfl OffsetCommitRequestTopic8.partsK OffsetCommitRequestTopic8.part_of OffsetCommitRequestTopic8.filled (by decide) (by decide)

/-- message/messages.gen.go:3344-3388 `OffsetCommitRequest.Decode`, with the receiver kept -/
def OffsetCommitRequest.decodeK (version : Int16) : KDec OffsetCommitRequest :=
    KDec.field Dec.string [] (fun t x => { t with GroupId := x }) ;|>
    KDec.onlyIf (version ≥ 1) (KDec.field Dec.int32 0 (fun t x => { t with GenerationId := x })) ;|>
    KDec.onlyIf (version ≥ 1) (KDec.field Dec.string [] (fun t x => { t with MemberId := x })) ;|>
    KDec.onlyIf (version ≥ 7) (KDec.field Dec.string [] (fun t x => { t with GroupInstanceId := x })) ;|>
    KDec.onlyIf (version ≥ 2 ∧ version ≤ 4) (KDec.field Dec.int64 0 (fun t x => { t with RetentionTimeMs := x })) ;|>
    KDec.fieldStructs (OffsetCommitRequestTopic8.decodeK version {}) {} (fun t x => { t with Topics := x })

/-- Where the fields of `OffsetCommitRequest` end. -/
def OffsetCommitRequest.ends (version : Int16) (t : OffsetCommitRequest) : Nat → Nat :=
  Cut.ends 0 [Wire.string t.GroupId,
    Wire.when (version ≥ 1) (Wire.int32 t.GenerationId),
    Wire.when (version ≥ 1) (Wire.string t.MemberId),
    Wire.when (version ≥ 7) (Wire.string t.GroupInstanceId),
    Wire.when (version ≥ 2 ∧ version ≤ 4) (Wire.int64 t.RetentionTimeMs),
    Wire.array (OffsetCommitRequestTopic8.wire version) t.Topics]

/-- What is left of `t` if only its first `n` bytes are there. -/
def OffsetCommitRequest.cut (version : Int16) (n : Nat) (t : OffsetCommitRequest) : OffsetCommitRequest :=
  { GroupId := Cut.field n (t.ends version 0) t.GroupId [],
    GenerationId := Cut.gate (version ≥ 1) (Cut.field n (t.ends version 1) t.GenerationId 0) 0,
    MemberId := Cut.gate (version ≥ 1) (Cut.field n (t.ends version 2) t.MemberId []) [],
    GroupInstanceId := Cut.gate (version ≥ 7) (Cut.field n (t.ends version 3) t.GroupInstanceId []) [],
    RetentionTimeMs := Cut.gate (version ≥ 2 ∧ version ≤ 4) (Cut.field n (t.ends version 4) t.RetentionTimeMs 0) 0,
    Topics := Cut.array n (t.ends version 4) (OffsetCommitRequestTopic8.wire version) (fun x => x.seen version {}) {} t.Topics }

/-- The same after the first `k` statements of `Decode`. -/
def OffsetCommitRequest.cutAt (version : Int16) (t : OffsetCommitRequest) (k n : Nat) : OffsetCommitRequest :=
  { GroupId := upto k 0 (Cut.field n (t.ends version 0) t.GroupId []) [],
    GenerationId := upto k 1 (Cut.gate (version ≥ 1) (Cut.field n (t.ends version 1) t.GenerationId 0) 0) 0,
    MemberId := upto k 2 (Cut.gate (version ≥ 1) (Cut.field n (t.ends version 2) t.MemberId []) []) [],
    GroupInstanceId := upto k 3 (Cut.gate (version ≥ 7) (Cut.field n (t.ends version 3) t.GroupInstanceId []) []) [],
    RetentionTimeMs := upto k 4 (Cut.gate (version ≥ 2 ∧ version ≤ 4) (Cut.field n (t.ends version 4) t.RetentionTimeMs 0) 0) 0,
    Topics := upto k 5 (Cut.array n (t.ends version 4) (OffsetCommitRequestTopic8.wire version) (fun x => x.seen version {}) {} t.Topics) none }

/-- The first `k` fields of `y`, and zeros. -/
def OffsetCommitRequest.first (k : Nat) (y : OffsetCommitRequest) : OffsetCommitRequest :=
  { GroupId := upto k 0 y.GroupId [],
    GenerationId := upto k 1 y.GenerationId 0,
    MemberId := upto k 2 y.MemberId [],
    GroupInstanceId := upto k 3 y.GroupInstanceId [],
    RetentionTimeMs := upto k 4 y.RetentionTimeMs 0,
    Topics := upto k 5 y.Topics none }

/-- `r` is a beginning of `y`, and zeros. -/
def OffsetCommitRequest.Part (r y : OffsetCommitRequest) : Prop :=
  (∃ k, k < 6 ∧ r = y.first k) ∨
    Cut.begun {} (fun t => t.Topics) (fun t x => { t with Topics := x }) (OffsetCommitRequest.first 5) r y

/-- `OffsetCommitRequest` with its receiver kept. -/
def OffsetCommitRequest.keeps : KeptMsg OffsetCommitRequest.type := { decode := OffsetCommitRequest.decodeK, cut := OffsetCommitRequest.cut, Part := OffsetCommitRequest.Part }

theorem OffsetCommitRequest.sameK (version : Int16) : KStep (OffsetCommitRequest.decodeK version) (OffsetCommitRequest.decode version) :=
  (KStep.field)
    |>.andThen (KStep.onlyIf (KStep.field))
    |>.andThen (KStep.onlyIf (KStep.field))
    |>.andThen (KStep.onlyIf (KStep.field))
    |>.andThen (KStep.onlyIf (KStep.field))
    |>.andThen (KStep.structs (fun _ => rfl) (OffsetCommitRequestTopic8.sameK version {}))
theorem OffsetCommitRequest.cutsK (version : Int16) (t : OffsetCommitRequest) (h : t.Fits version) :
    Cuts (OffsetCommitRequest.decodeK version) 0 (OffsetCommitRequest.wire version t) (OffsetCommitRequest.ends version t 5) (OffsetCommitRequest.cutAt version t 0) (OffsetCommitRequest.cutAt version t 6) :=
  (.field (reads_string h.GroupId) (fun _ => rfl) (fun _ => rfl) : Cuts _ 0 _ (OffsetCommitRequest.ends version t 0) (OffsetCommitRequest.cutAt version t 0) (OffsetCommitRequest.cutAt version t 1))
    |>.andThen (.optField (fun _ => reads_int32 t.GenerationId) (fun _ => rfl) (fun _ => rfl) : Cuts _ (OffsetCommitRequest.ends version t 0) _ (OffsetCommitRequest.ends version t 1) (OffsetCommitRequest.cutAt version t 1) (OffsetCommitRequest.cutAt version t 2))
    |>.andThen (.optField (fun hc => reads_string (h.MemberId hc)) (fun _ => rfl) (fun _ => rfl) : Cuts _ (OffsetCommitRequest.ends version t 1) _ (OffsetCommitRequest.ends version t 2) (OffsetCommitRequest.cutAt version t 2) (OffsetCommitRequest.cutAt version t 3))
    |>.andThen (.optField (fun hc => reads_string (h.GroupInstanceId hc)) (fun _ => rfl) (fun _ => rfl) : Cuts _ (OffsetCommitRequest.ends version t 2) _ (OffsetCommitRequest.ends version t 3) (OffsetCommitRequest.cutAt version t 3) (OffsetCommitRequest.cutAt version t 4))
    |>.andThen (.optField (fun _ => reads_int64 t.RetentionTimeMs) (fun _ => rfl) (fun _ => rfl) : Cuts _ (OffsetCommitRequest.ends version t 3) _ (OffsetCommitRequest.ends version t 4) (OffsetCommitRequest.cutAt version t 4) (OffsetCommitRequest.cutAt version t 5))
    |>.andThen (.structs (OffsetCommitRequestTopic8.sameK version {}) (fun x hx => OffsetCommitRequestTopic8.reads version x hx {}) h.Topics (fun _ => rfl) (fun _ => rfl) : Cuts _ (OffsetCommitRequest.ends version t 4) _ (OffsetCommitRequest.ends version t 5) (OffsetCommitRequest.cutAt version t 5) (OffsetCommitRequest.cutAt version t 6))
theorem OffsetCommitRequest.partsK (version : Int16) : Parts (OffsetCommitRequest.decodeK version) (OffsetCommitRequest.first 0) (OffsetCommitRequest.first 6) (fun r y => ((((((r = OffsetCommitRequest.first 0 y) ∨ (r = OffsetCommitRequest.first 1 y)) ∨ (r = OffsetCommitRequest.first 2 y)) ∨ (r = OffsetCommitRequest.first 3 y)) ∨ (r = OffsetCommitRequest.first 4 y)) ∨ (r = OffsetCommitRequest.first 5 y ∨ Cut.begun {} (fun t => t.Topics) (fun t x => { t with Topics := x }) (OffsetCommitRequest.first 5) r y))) :=
  (.field Longer.string (fun _ => rfl) (fun _ _ => rfl) (fun _ _ => rfl) (fun _ => rfl) : Parts (KDec.field Dec.string [] (fun t x => { t with GroupId := x })) (OffsetCommitRequest.first 0) (OffsetCommitRequest.first 1) (fun r y => r = OffsetCommitRequest.first 0 y))
    |>.andThen (.onlyIf (.field Longer.int32 (fun _ => rfl) (fun _ _ => rfl) (fun _ _ => rfl) (fun _ => rfl)) (fun _ => rfl) : Parts (KDec.onlyIf (version ≥ 1) (KDec.field Dec.int32 0 (fun t x => { t with GenerationId := x }))) (OffsetCommitRequest.first 1) (OffsetCommitRequest.first 2) (fun r y => r = OffsetCommitRequest.first 1 y))
    |>.andThen (.onlyIf (.field Longer.string (fun _ => rfl) (fun _ _ => rfl) (fun _ _ => rfl) (fun _ => rfl)) (fun _ => rfl) : Parts (KDec.onlyIf (version ≥ 1) (KDec.field Dec.string [] (fun t x => { t with MemberId := x }))) (OffsetCommitRequest.first 2) (OffsetCommitRequest.first 3) (fun r y => r = OffsetCommitRequest.first 2 y))
    |>.andThen (.onlyIf (.field Longer.string (fun _ => rfl) (fun _ _ => rfl) (fun _ _ => rfl) (fun _ => rfl)) (fun _ => rfl) : Parts (KDec.onlyIf (version ≥ 7) (KDec.field Dec.string [] (fun t x => { t with GroupInstanceId := x }))) (OffsetCommitRequest.first 3) (OffsetCommitRequest.first 4) (fun r y => r = OffsetCommitRequest.first 3 y))
    |>.andThen (.onlyIf (.field Longer.int64 (fun _ => rfl) (fun _ _ => rfl) (fun _ _ => rfl) (fun _ => rfl)) (fun _ => rfl) : Parts (KDec.onlyIf (version ≥ 2 ∧ version ≤ 4) (KDec.field Dec.int64 0 (fun t x => { t with RetentionTimeMs := x }))) (OffsetCommitRequest.first 4) (OffsetCommitRequest.first 5) (fun r y => r = OffsetCommitRequest.first 4 y))
    |>.andThen (.structs (get := fun (t : OffsetCommitRequest) => t.Topics) ((OffsetCommitRequestTopic8.partsK version).longer {}) (fun _ => rfl) (fun _ => rfl) (fun _ _ => rfl) (fun _ _ => rfl) (fun _ _ => rfl) (fun _ => rfl) (fun _ => rfl) : Parts (KDec.fieldStructs (OffsetCommitRequestTopic8.decodeK version {}) {} (fun t x => { t with Topics := x })) (OffsetCommitRequest.first 5) (OffsetCommitRequest.first 6) (fun r y => r = OffsetCommitRequest.first 5 y ∨ Cut.begun {} (fun t => t.Topics) (fun t x => { t with Topics := x }) (OffsetCommitRequest.first 5) r y))
theorem OffsetCommitRequest.filled (version : Int16) : FilledStep 22 51539640330 (OffsetCommitRequest.decode version) :=
  ((FilledStep.field .string)
    |>.andThen (FilledStep.onlyIf (FilledStep.field .int32))
    |>.andThen (FilledStep.onlyIf (FilledStep.field .string))
    |>.andThen (FilledStep.onlyIf (FilledStep.field .string))
    |>.andThen (FilledStep.onlyIf (FilledStep.field .int64))
    |>.andThen (FilledStep.structs (OffsetCommitRequestTopic8.filled version {}))).mono (by decide) (by decide)
theorem OffsetCommitRequest.part_of (r y : OffsetCommitRequest) (h : ((((((r = OffsetCommitRequest.first 0 y) ∨ (r = OffsetCommitRequest.first 1 y)) ∨ (r = OffsetCommitRequest.first 2 y)) ∨ (r = OffsetCommitRequest.first 3 y)) ∨ (r = OffsetCommitRequest.first 4 y)) ∨ (r = OffsetCommitRequest.first 5 y ∨ Cut.begun {} (fun t => t.Topics) (fun t x => { t with Topics := x }) (OffsetCommitRequest.first 5) r y))) : OffsetCommitRequest.Part r y :=
  match h with
    | (.inl (.inl (.inl (.inl (.inl h))))) => .inl ⟨0, by decide, h⟩
    | (.inl (.inl (.inl (.inl (.inr h))))) => .inl ⟨1, by decide, h⟩
    | (.inl (.inl (.inl (.inr h)))) => .inl ⟨2, by decide, h⟩
    | (.inl (.inl (.inr h))) => .inl ⟨3, by decide, h⟩
    | (.inl (.inr h)) => .inl ⟨4, by decide, h⟩
    | (.inr (.inl h)) => .inl ⟨5, by decide, h⟩
    | (.inr (.inr h)) => (.inr h)
theorem OffsetCommitRequest.keeps_holds : OffsetCommitRequest.keeps.Holds OffsetCommitRequest.layout :=
  KeptMsg.holds OffsetCommitRequest.lawful OffsetCommitRequest.sameK (stop := fun v t => OffsetCommitRequest.ends v t 5) (c := fun v t => OffsetCommitRequest.cutAt v t 0) (fun _ _ _ => rfl) OffsetCommitRequest.cutsK (c0 := OffsetCommitRequest.first 0) rfl OffsetCommitRequest.partsK OffsetCommitRequest.part_of OffsetCommitRequest.filled (by decide) (by decide)

/-- message/messages.gen.go:3620-3631 `OffsetCommitResponsePartition8.Decode`, with the receiver kept -/
def OffsetCommitResponsePartition8.decodeK (_version : Int16) : KDec OffsetCommitResponsePartition8 :=
    KDec.field Dec.int32 0 (fun t x => { t with PartitionIndex := x }) ;|>
    KDec.field Dec.int16 0 (fun t x => { t with ErrorCode := x })

/-- Where the fields of `OffsetCommitResponsePartition8` end. -/
def OffsetCommitResponsePartition8.ends (_version : Int16) (t : OffsetCommitResponsePartition8) : Nat → Nat :=
  Cut.ends 0 [Wire.int32 t.PartitionIndex,
    Wire.int16 t.ErrorCode]

/-- What is left of `t` if only its first `n` bytes are there. -/
def OffsetCommitResponsePartition8.cut (version : Int16) (n : Nat) (t : OffsetCommitResponsePartition8) : OffsetCommitResponsePartition8 :=
  { PartitionIndex := Cut.field n (t.ends version 0) t.PartitionIndex 0,
    ErrorCode := Cut.field n (t.ends version 1) t.ErrorCode 0 }

/-- The same after the first `k` statements of `Decode`. -/
def OffsetCommitResponsePartition8.cutAt (version : Int16) (t : OffsetCommitResponsePartition8) (k n : Nat) : OffsetCommitResponsePartition8 :=
  { PartitionIndex := upto k 0 (Cut.field n (t.ends version 0) t.PartitionIndex 0) 0,
    ErrorCode := upto k 1 (Cut.field n (t.ends version 1) t.ErrorCode 0) 0 }

/-- The first `k` fields of `y`, and zeros. -/
def OffsetCommitResponsePartition8.first (k : Nat) (y : OffsetCommitResponsePartition8) : OffsetCommitResponsePartition8 :=
  { PartitionIndex := upto k 0 y.PartitionIndex 0,
    ErrorCode := upto k 1 y.ErrorCode 0 }

/-- `r` is a beginning of `y`, and zeros. -/
def OffsetCommitResponsePartition8.Part (r y : OffsetCommitResponsePartition8) : Prop :=
  (∃ k, k < 2 ∧ r = y.first k)

/-- `OffsetCommitResponsePartition8` with its receiver kept. -/
def OffsetCommitResponsePartition8.keeps : KeptMsg OffsetCommitResponsePartition8.type := { decode := OffsetCommitResponsePartition8.decodeK, cut := OffsetCommitResponsePartition8.cut, Part := OffsetCommitResponsePartition8.Part }

theorem OffsetCommitResponsePartition8.sameK (version : Int16) : KStep (OffsetCommitResponsePartition8.decodeK version) (OffsetCommitResponsePartition8.decode version) :=
  (KStep.field)
    |>.andThen (KStep.field)
theorem OffsetCommitResponsePartition8.cutsK (version : Int16) (t : OffsetCommitResponsePartition8) (h : t.Fits version) :
    Cuts (OffsetCommitResponsePartition8.decodeK version) 0 (OffsetCommitResponsePartition8.wire version t) (OffsetCommitResponsePartition8.ends version t 1) (OffsetCommitResponsePartition8.cutAt version t 0) (OffsetCommitResponsePartition8.cutAt version t 2) :=
  (.field (reads_int32 t.PartitionIndex) (fun _ => rfl) (fun _ => rfl) : Cuts _ 0 _ (OffsetCommitResponsePartition8.ends version t 0) (OffsetCommitResponsePartition8.cutAt version t 0) (OffsetCommitResponsePartition8.cutAt version t 1))
    |>.andThen (.field (reads_int16 t.ErrorCode) (fun _ => rfl) (fun _ => rfl) : Cuts _ (OffsetCommitResponsePartition8.ends version t 0) _ (OffsetCommitResponsePartition8.ends version t 1) (OffsetCommitResponsePartition8.cutAt version t 1) (OffsetCommitResponsePartition8.cutAt version t 2))
theorem OffsetCommitResponsePartition8.partsK (version : Int16) : Parts (OffsetCommitResponsePartition8.decodeK version) (OffsetCommitResponsePartition8.first 0) (OffsetCommitResponsePartition8.first 2) (fun r y => ((r = OffsetCommitResponsePartition8.first 0 y) ∨ (r = OffsetCommitResponsePartition8.first 1 y))) :=
  (.field Longer.int32 (fun _ => rfl) (fun _ _ => rfl) (fun _ _ => rfl) (fun _ => rfl) : Parts (KDec.field Dec.int32 0 (fun t x => { t with PartitionIndex := x })) (OffsetCommitResponsePartition8.first 0) (OffsetCommitResponsePartition8.first 1) (fun r y => r = OffsetCommitResponsePartition8.first 0 y))
    |>.andThen (.field Longer.int16 (fun _ => rfl) (fun _ _ => rfl) (fun _ _ => rfl) (fun _ => rfl) : Parts (KDec.field Dec.int16 0 (fun t x => { t with ErrorCode := x })) (OffsetCommitResponsePartition8.first 1) (OffsetCommitResponsePartition8.first 2) (fun r y => r = OffsetCommitResponsePartition8.first 1 y))
theorem OffsetCommitResponsePartition8.filled (version : Int16) : FilledStep 6 6 (OffsetCommitResponsePartition8.decode version) :=
  ((FilledStep.field .int32)
    |>.andThen (FilledStep.field .int16)).mono (by decide) (by decide)
theorem OffsetCommitResponsePartition8.part_of (r y : OffsetCommitResponsePartition8) (h : ((r = OffsetCommitResponsePartition8.first 0 y) ∨ (r = OffsetCommitResponsePartition8.first 1 y))) : OffsetCommitResponsePartition8.Part r y :=
  match h with
    | (.inl h) => ⟨0, by decide, h⟩
    | (.inr h) => ⟨1, by decide, h⟩
theorem OffsetCommitResponsePartition8.keeps_holds : OffsetCommitResponsePartition8.keeps.Holds OffsetCommitResponsePartition8.layout :=
  KeptMsg.holds OffsetCommitResponsePartition8.lawful OffsetCommitResponsePartition8.sameK (stop := fun v t => OffsetCommitResponsePartition8.ends v t 1) (c := fun v t => OffsetCommitResponsePartition8.cutAt v t 0) (fun _ _ _ => rfl) OffsetCommitResponsePartition8.cutsK (c0 := OffsetCommitResponsePartition8.first 0) rfl OffsetCommitResponsePartition8.partsK OffsetCommitResponsePartition8.part_of OffsetCommitResponsePartition8.filled (by decide) (by decide)

/-- message/messages.gen.go:3578-3598 `OffsetCommitResponseTopic8.Decode`, with the receiver kept -/
def OffsetCommitResponseTopic8.decodeK (version : Int16) : KDec OffsetCommitResponseTopic8 :=
    KDec.field Dec.string [] (fun t x => { t with Name := x }) ;|>
    KDec.fieldStructs (OffsetCommitResponsePartition8.decodeK version {}) {} (fun t x => { t with Partitions := x })

/-- Where the fields of `OffsetCommitResponseTopic8` end. -/
def OffsetCommitResponseTopic8.ends (version : Int16) (t : OffsetCommitResponseTopic8) : Nat → Nat :=
  Cut.ends 0 [Wire.string t.Name,
    Wire.array (OffsetCommitResponsePartition8.wire version) t.Partitions]

/-- What is left of `t` if only its first `n` bytes are there. -/
def OffsetCommitResponseTopic8.cut (version : Int16) (n : Nat) (t : OffsetCommitResponseTopic8) : OffsetCommitResponseTopic8 :=
  { Name := Cut.field n (t.ends version 0) t.Name [],
    Partitions := Cut.array n (t.ends version 0) (OffsetCommitResponsePartition8.wire version) (fun x => x.seen version {}) {} t.Partitions }

/-- The same after the first `k` statements of `Decode`. -/
def OffsetCommitResponseTopic8.cutAt (version : Int16) (t : OffsetCommitResponseTopic8) (k n : Nat) : OffsetCommitResponseTopic8 :=
  { Name := upto k 0 (Cut.field n (t.ends version 0) t.Name []) [],
    Partitions := upto k 1 (Cut.array n (t.ends version 0) (OffsetCommitResponsePartition8.wire version) (fun x => x.seen version {}) {} t.Partitions) none }

/-- The first `k` fields of `y`, and zeros. -/
def OffsetCommitResponseTopic8.first (k : Nat) (y : OffsetCommitResponseTopic8) : OffsetCommitResponseTopic8 :=
  { Name := upto k 0 y.Name [],
    Partitions := upto k 1 y.Partitions none }

/-- `r` is a beginning of `y`, and zeros. -/
def OffsetCommitResponseTopic8.Part (r y : OffsetCommitResponseTopic8) : Prop :=
  (∃ k, k < 2 ∧ r = y.first k) ∨
    Cut.begun {} (fun t => t.Partitions) (fun t x => { t with Partitions := x }) (OffsetCommitResponseTopic8.first 1) r y

/-- `OffsetCommitResponseTopic8` with its receiver kept. -/
def OffsetCommitResponseTopic8.keeps : KeptMsg OffsetCommitResponseTopic8.type := { decode := OffsetCommitResponseTopic8.decodeK, cut := OffsetCommitResponseTopic8.cut, Part := OffsetCommitResponseTopic8.Part }

theorem OffsetCommitResponseTopic8.sameK (version : Int16) : KStep (OffsetCommitResponseTopic8.decodeK version) (OffsetCommitResponseTopic8.decode version) :=
  (KStep.field)
    |>.andThen (KStep.structs (fun _ => rfl) (OffsetCommitResponsePartition8.sameK version {}))
theorem OffsetCommitResponseTopic8.cutsK (version : Int16) (t : OffsetCommitResponseTopic8) (h : t.Fits version) :
    Cuts (OffsetCommitResponseTopic8.decodeK version) 0 (OffsetCommitResponseTopic8.wire version t) (OffsetCommitResponseTopic8.ends version t 1) (OffsetCommitResponseTopic8.cutAt version t 0) (OffsetCommitResponseTopic8.cutAt version t 2) :=
  (.field (reads_string h.Name) (fun _ => rfl) (fun _ => rfl) : Cuts _ 0 _ (OffsetCommitResponseTopic8.ends version t 0) (OffsetCommitResponseTopic8.cutAt version t 0) (OffsetCommitResponseTopic8.cutAt version t 1))
    |>.andThen (.structs (OffsetCommitResponsePartition8.sameK version {}) (fun x hx => OffsetCommitResponsePartition8.reads version x hx {}) h.Partitions (fun _ => rfl) (fun _ => rfl) : Cuts _ (OffsetCommitResponseTopic8.ends version t 0) _ (OffsetCommitResponseTopic8.ends version t 1) (OffsetCommitResponseTopic8.cutAt version t 1) (OffsetCommitResponseTopic8.cutAt version t 2))
theorem OffsetCommitResponseTopic8.partsK (version : Int16) : Parts (OffsetCommitResponseTopic8.decodeK version) (OffsetCommitResponseTopic8.first 0) (OffsetCommitResponseTopic8.first 2) (fun r y => ((r = OffsetCommitResponseTopic8.first 0 y) ∨ (r = OffsetCommitResponseTopic8.first 1 y ∨ Cut.begun {} (fun t => t.Partitions) (fun t x => { t with Partitions := x }) (OffsetCommitResponseTopic8.first 1) r y))) :=
  (.field Longer.string (fun _ => rfl) (fun _ _ => rfl) (fun _ _ => rfl) (fun _ => rfl) : Parts (KDec.field Dec.string [] (fun t x => { t with Name := x })) (OffsetCommitResponseTopic8.first 0) (OffsetCommitResponseTopic8.first 1) (fun r y => r = OffsetCommitResponseTopic8.first 0 y))
    |>.andThen (.structs (get := fun (t : OffsetCommitResponseTopic8) => t.Partitions) ((OffsetCommitResponsePartition8.partsK version).longer {}) (fun _ => rfl) (fun _ => rfl) (fun _ _ => rfl) (fun _ _ => rfl) (fun _ _ => rfl) (fun _ => rfl) (fun _ => rfl) : Parts (KDec.fieldStructs (OffsetCommitResponsePartition8.decodeK version {}) {} (fun t x => { t with Partitions := x })) (OffsetCommitResponseTopic8.first 1) (OffsetCommitResponseTopic8.first 2) (fun r y => r = OffsetCommitResponseTopic8.first 1 y ∨ Cut.begun {} (fun t => t.Partitions) (fun t x => { t with Partitions := x }) (OffsetCommitResponseTopic8.first 1) r y))
theorem OffsetCommitResponseTopic8.filled (version : Int16) : FilledStep 6 12884901898 (OffsetCommitResponseTopic8.decode version) :=
  ((FilledStep.field .string)
    |>.andThen (FilledStep.structs (OffsetCommitResponsePartition8.filled version {}))).mono (by decide) (by decide)
theorem OffsetCommitResponseTopic8.part_of (r y : OffsetCommitResponseTopic8) (h : ((r = OffsetCommitResponseTopic8.first 0 y) ∨ (r = OffsetCommitResponseTopic8.first 1 y ∨ Cut.begun {} (fun t => t.Partitions) (fun t x => { t with Partitions := x }) (OffsetCommitResponseTopic8.first 1) r y))) : OffsetCommitResponseTopic8.Part r y :=
  match h with
    | (.inl h) => .inl ⟨0, by decide, h⟩
    | (.inr (.inl h)) => .inl ⟨1, by decide, h⟩
    | (.inr (.inr h)) => (.inr h)
theorem OffsetCommitResponseTopic8.keeps_holds : OffsetCommitResponseTopic8.keeps.Holds OffsetCommitResponseTopic8.layout :=
  KeptMsg.holds OffsetCommitResponseTopic8.lawful OffsetCommitResponseTopic8.sameK (stop := fun v t => OffsetCommitResponseTopic8.ends v t 1) (c := fun v t => OffsetCommitResponseTopic8.cutAt v t 0) (fun _ _ _ => rfl) OffsetCommitResponseTopic8.cutsK (c0 := OffsetCommitResponseTopic8.first 0) rfl OffsetCommitResponseTopic8.partsK OffsetCommitResponseTopic8.part_of OffsetCommitResponseTopic8.filled (by decide) (by decide)

/-- message/messages.gen.go:3526-3548 `OffsetCommitResponse.Decode`, with the receiver kept -/
def OffsetCommitResponse.decodeK (version : Int16) : KDec OffsetCommitResponse :=
    KDec.onlyIf (version ≥ 3) (KDec.field Dec.int32 0 (fun t x => { t with ThrottleTimeMs := x })) ;|>
    KDec.fieldStructs (OffsetCommitResponseTopic8.decodeK version {}) {} (fun t x => { t with Topics := x })

/-- Where the fields of `OffsetCommitResponse` end. -/
def OffsetCommitResponse.ends (version : Int16) (t : OffsetCommitResponse) : Nat → Nat :=
  Cut.ends 0 [Wire.when (version ≥ 3) (Wire.int32 t.ThrottleTimeMs),
    Wire.array (OffsetCommitResponseTopic8.wire version) t.Topics]

/-- What is left of `t` if only its first `n` bytes are there. -/
def OffsetCommitResponse.cut (version : Int16) (n : Nat) (t : OffsetCommitResponse) : OffsetCommitResponse :=
  { ThrottleTimeMs := Cut.gate (version ≥ 3) (Cut.field n (t.ends version 0) t.ThrottleTimeMs 0) 0,
    Topics := Cut.array n (t.ends version 0) (OffsetCommitResponseTopic8.wire version) (fun x => x.seen version {}) {} t.Topics }

/-- The same after the first `k` statements of `Decode`. -/
def OffsetCommitResponse.cutAt (version : Int16) (t : OffsetCommitResponse) (k n : Nat) : OffsetCommitResponse :=
  { ThrottleTimeMs := upto k 0 (Cut.gate (version ≥ 3) (Cut.field n (t.ends version 0) t.ThrottleTimeMs 0) 0) 0,
    Topics := upto k 1 (Cut.array n (t.ends version 0) (OffsetCommitResponseTopic8.wire version) (fun x => x.seen version {}) {} t.Topics) none }

/-- The first `k` fields of `y`, and zeros. -/
def OffsetCommitResponse.first (k : Nat) (y : OffsetCommitResponse) : OffsetCommitResponse :=
  { ThrottleTimeMs := upto k 0 y.ThrottleTimeMs 0,
    Topics := upto k 1 y.Topics none }

/-- `r` is a beginning of `y`, and zeros. -/
def OffsetCommitResponse.Part (r y : OffsetCommitResponse) : Prop :=
  (∃ k, k < 2 ∧ r = y.first k) ∨
    Cut.begun {} (fun t => t.Topics) (fun t x => { t with Topics := x }) (OffsetCommitResponse.first 1) r y

/-- `OffsetCommitResponse` with its receiver kept. -/
def OffsetCommitResponse.keeps : KeptMsg OffsetCommitResponse.type := { decode := OffsetCommitResponse.decodeK, cut := OffsetCommitResponse.cut, Part := OffsetCommitResponse.Part }

theorem OffsetCommitResponse.sameK (version : Int16) : KStep (OffsetCommitResponse.decodeK version) (OffsetCommitResponse.decode version) :=
  (KStep.onlyIf (KStep.field))
    |>.andThen (KStep.structs (fun _ => rfl) (OffsetCommitResponseTopic8.sameK version {}))
theorem OffsetCommitResponse.cutsK (version : Int16) (t : OffsetCommitResponse) (h : t.Fits version) :
    Cuts (OffsetCommitResponse.decodeK version) 0 (OffsetCommitResponse.wire version t) (OffsetCommitResponse.ends version t 1) (OffsetCommitResponse.cutAt version t 0) (OffsetCommitResponse.cutAt version t 2) :=
  (.optField (fun _ => reads_int32 t.ThrottleTimeMs) (fun _ => rfl) (fun _ => rfl) : Cuts _ 0 _ (OffsetCommitResponse.ends version t 0) (OffsetCommitResponse.cutAt version t 0) (OffsetCommitResponse.cutAt version t 1))
    |>.andThen (.structs (OffsetCommitResponseTopic8.sameK version {}) (fun x hx => OffsetCommitResponseTopic8.reads version x hx {}) h.Topics (fun _ => rfl) (fun _ => rfl) : Cuts _ (OffsetCommitResponse.ends version t 0) _ (OffsetCommitResponse.ends version t 1) (OffsetCommitResponse.cutAt version t 1) (OffsetCommitResponse.cutAt version t 2))
theorem OffsetCommitResponse.partsK (version : Int16) : Parts (OffsetCommitResponse.decodeK version) (OffsetCommitResponse.first 0) (OffsetCommitResponse.first 2) (fun r y => ((r = OffsetCommitResponse.first 0 y) ∨ (r = OffsetCommitResponse.first 1 y ∨ Cut.begun {} (fun t => t.Topics) (fun t x => { t with Topics := x }) (OffsetCommitResponse.first 1) r y))) :=
  (.onlyIf (.field Longer.int32 (fun _ => rfl) (fun _ _ => rfl) (fun _ _ => rfl) (fun _ => rfl)) (fun _ => rfl) : Parts (KDec.onlyIf (version ≥ 3) (KDec.field Dec.int32 0 (fun t x => { t with ThrottleTimeMs := x }))) (OffsetCommitResponse.first 0) (OffsetCommitResponse.first 1) (fun r y => r = OffsetCommitResponse.first 0 y))
    |>.andThen (.structs (get := fun (t : OffsetCommitResponse) => t.Topics) ((OffsetCommitResponseTopic8.partsK version).longer {}) (fun _ => rfl) (fun _ => rfl) (fun _ _ => rfl) (fun _ _ => rfl) (fun _ _ => rfl) (fun _ => rfl) (fun _ => rfl) : Parts (KDec.fieldStructs (OffsetCommitResponseTopic8.decodeK version {}) {} (fun t x => { t with Topics := x })) (OffsetCommitResponse.first 1) (OffsetCommitResponse.first 2) (fun r y => r = OffsetCommitResponse.first 1 y ∨ Cut.begun {} (fun t => t.Topics) (fun t x => { t with Topics := x }) (OffsetCommitResponse.first 1) r y))
theorem OffsetCommitResponse.filled (version : Int16) : FilledStep 8 25769803790 (OffsetCommitResponse.decode version) :=
  ((FilledStep.onlyIf (FilledStep.field .int32))
    |>.andThen (FilledStep.structs (OffsetCommitResponseTopic8.filled version {}))).mono (by decide) (by decide)
theorem OffsetCommitResponse.part_of (r y : OffsetCommitResponse) (h : ((r = OffsetCommitResponse.first 0 y) ∨ (r = OffsetCommitResponse.first 1 y ∨ Cut.begun {} (fun t => t.Topics) (fun t x => { t with Topics := x }) (OffsetCommitResponse.first 1) r y))) : OffsetCommitResponse.Part r y :=
  match h with
    | (.inl h) => .inl ⟨0, by decide, h⟩
    | (.inr (.inl h)) => .inl ⟨1, by decide, h⟩
    | (.inr (.inr h)) => (.inr h)
theorem OffsetCommitResponse.keeps_holds : OffsetCommitResponse.keeps.Holds OffsetCommitResponse.layout :=
  KeptMsg.holds OffsetCommitResponse.lawful OffsetCommitResponse.sameK (stop := fun v t => OffsetCommitResponse.ends v t 1) (c := fun v t => OffsetCommitResponse.cutAt v t 0) (fun _ _ _ => rfl) OffsetCommitResponse.cutsK (c0 := OffsetCommitResponse.first 0) rfl OffsetCommitResponse.partsK OffsetCommitResponse.part_of OffsetCommitResponse.filled (by decide) (by decide)

/-- The structures of the OffsetCommit messages. -/
def keptOffsetCommit : List (Σ (M : MsgType) (_ : Layout M), KeptMsg M) :=
  [⟨OffsetCommitRequest.type, OffsetCommitRequest.layout, OffsetCommitRequest.keeps⟩,
   ⟨OffsetCommitRequestTopic8.type, OffsetCommitRequestTopic8.layout, OffsetCommitRequestTopic8.keeps⟩,
   ⟨OffsetCommitRequestPartition8.type, OffsetCommitRequestPartition8.layout, OffsetCommitRequestPartition8.keeps⟩,
   ⟨OffsetCommitResponse.type, OffsetCommitResponse.layout, OffsetCommitResponse.keeps⟩,
   ⟨OffsetCommitResponseTopic8.type, OffsetCommitResponseTopic8.layout, OffsetCommitResponseTopic8.keeps⟩,
   ⟨OffsetCommitResponsePartition8.type, OffsetCommitResponsePartition8.layout, OffsetCommitResponsePartition8.keeps⟩]
theorem keptOffsetCommit_holds : ∀ p ∈ keptOffsetCommit, p.2.2.Holds p.2.1 := by
  unfold keptOffsetCommit
  simp only [List.forall_mem_cons]
  exact ⟨OffsetCommitRequest.keeps_holds, OffsetCommitRequestTopic8.keeps_holds, OffsetCommitRequestPartition8.keeps_holds, OffsetCommitResponse.keeps_holds, OffsetCommitResponseTopic8.keeps_holds, OffsetCommitResponsePartition8.keeps_holds, fun _ h => absurd h (by simp)⟩

end Kafka.Msg
