import Verif.Message.KeptLemmas
import Verif.Gen.Proof.OffsetForLeaderEpoch
/-!
Generated by tools/gen_messages.py: what is in the OffsetForLeaderEpoch messages after an error.
-/
set_option linter.unusedVariables false
namespace Kafka.Msg

/-- message/messages.gen.go:6447-6464 `OffsetForLeaderPartition23.Decode`, with the receiver kept -/
def OffsetForLeaderPartition23.decodeK (version : Int16) : KDec OffsetForLeaderPartition23 :=
    KDec.field Dec.int32 0 (fun t x => { t with PartitionIndex := x }) ;|>
    KDec.onlyIf (version ≥ 2) (KDec.field Dec.int32 0 (fun t x => { t with CurrentLeaderEpoch := x })) ;|>
    KDec.field Dec.int32 0 (fun t x => { t with LeaderEpoch := x })

/-- Where the fields of `OffsetForLeaderPartition23` end. -/
def OffsetForLeaderPartition23.ends (version : Int16) (t : OffsetForLeaderPartition23) : Nat → Nat :=
  Cut.ends 0 [Wire.int32 t.PartitionIndex,
    Wire.when (version ≥ 2) (Wire.int32 t.CurrentLeaderEpoch),
    Wire.int32 t.LeaderEpoch]

/-- What is left of `t` if only its first `n` bytes are there. -/
def OffsetForLeaderPartition23.cut (version : Int16) (n : Nat) (t : OffsetForLeaderPartition23) : OffsetForLeaderPartition23 :=
  { PartitionIndex := Cut.field n (t.ends version 0) t.PartitionIndex 0,
    CurrentLeaderEpoch := Cut.gate (version ≥ 2) (Cut.field n (t.ends version 1) t.CurrentLeaderEpoch 0) 0,
    LeaderEpoch := Cut.field n (t.ends version 2) t.LeaderEpoch 0 }

/-- The same after the first `k` statements of `Decode`. -/
def OffsetForLeaderPartition23.cutAt (version : Int16) (t : OffsetForLeaderPartition23) (k n : Nat) : OffsetForLeaderPartition23 :=
  { PartitionIndex := upto k 0 (Cut.field n (t.ends version 0) t.PartitionIndex 0) 0,
    CurrentLeaderEpoch := upto k 1 (Cut.gate (version ≥ 2) (Cut.field n (t.ends version 1) t.CurrentLeaderEpoch 0) 0) 0,
    LeaderEpoch := upto k 2 (Cut.field n (t.ends version 2) t.LeaderEpoch 0) 0 }

/-- The first `k` fields of `y`, and zeros. -/
def OffsetForLeaderPartition23.first (k : Nat) (y : OffsetForLeaderPartition23) : OffsetForLeaderPartition23 :=
  { PartitionIndex := upto k 0 y.PartitionIndex 0,
    CurrentLeaderEpoch := upto k 1 y.CurrentLeaderEpoch 0,
    LeaderEpoch := upto k 2 y.LeaderEpoch 0 }

/-- `r` is a beginning of `y`, and zeros. -/
def OffsetForLeaderPartition23.Part (r y : OffsetForLeaderPartition23) : Prop :=
  (∃ k, k < 3 ∧ r = y.first k)

/-- `OffsetForLeaderPartition23` with its receiver kept. -/
def OffsetForLeaderPartition23.keeps : KeptMsg OffsetForLeaderPartition23.type := { decode := OffsetForLeaderPartition23.decodeK, cut := OffsetForLeaderPartition23.cut, Part := OffsetForLeaderPartition23.Part }

theorem OffsetForLeaderPartition23.sameK (version : Int16) : KStep (OffsetForLeaderPartition23.decodeK version) (OffsetForLeaderPartition23.decode version) :=
  (KStep.field)
    |>.andThen (KStep.onlyIf (KStep.field))
    |>.andThen (KStep.field)
theorem OffsetForLeaderPartition23.cutsK (version : Int16) (t : OffsetForLeaderPartition23) (h : t.Fits version) :
    Cuts (OffsetForLeaderPartition23.decodeK version) 0 (OffsetForLeaderPartition23.wire version t) (OffsetForLeaderPartition23.ends version t 2) (OffsetForLeaderPartition23.cutAt version t 0) (OffsetForLeaderPartition23.cutAt version t 3) :=
  (.field (reads_int32 t.PartitionIndex) (fun _ => rfl) (fun _ => rfl) : Cuts _ 0 _ (OffsetForLeaderPartition23.ends version t 0) (OffsetForLeaderPartition23.cutAt version t 0) (OffsetForLeaderPartition23.cutAt version t 1))
    |>.andThen (.optField (fun _ => reads_int32 t.CurrentLeaderEpoch) (fun _ => rfl) (fun _ => rfl) : Cuts _ (OffsetForLeaderPartition23.ends version t 0) _ (OffsetForLeaderPartition23.ends version t 1) (OffsetForLeaderPartition23.cutAt version t 1) (OffsetForLeaderPartition23.cutAt version t 2))
    |>.andThen (.field (reads_int32 t.LeaderEpoch) (fun _ => rfl) (fun _ => rfl) : Cuts _ (OffsetForLeaderPartition23.ends version t 1) _ (OffsetForLeaderPartition23.ends version t 2) (OffsetForLeaderPartition23.cutAt version t 2) (OffsetForLeaderPartition23.cutAt version t 3))
theorem OffsetForLeaderPartition23.partsK (version : Int16) : Parts (OffsetForLeaderPartition23.decodeK version) (OffsetForLeaderPartition23.first 0) (OffsetForLeaderPartition23.first 3) (fun r y => (((r = OffsetForLeaderPartition23.first 0 y) ∨ (r = OffsetForLeaderPartition23.first 1 y)) ∨ (r = OffsetForLeaderPartition23.first 2 y))) :=
  (.field Longer.int32 (fun _ => rfl) (fun _ _ => rfl) (fun _ _ => rfl) (fun _ => rfl) : Parts (KDec.field Dec.int32 0 (fun t x => { t with PartitionIndex := x })) (OffsetForLeaderPartition23.first 0) (OffsetForLeaderPartition23.first 1) (fun r y => r = OffsetForLeaderPartition23.first 0 y))
    |>.andThen (.onlyIf (.field Longer.int32 (fun _ => rfl) (fun _ _ => rfl) (fun _ _ => rfl) (fun _ => rfl)) (fun _ => rfl) : Parts (KDec.onlyIf (version ≥ 2) (KDec.field Dec.int32 0 (fun t x => { t with CurrentLeaderEpoch := x }))) (OffsetForLeaderPartition23.first 1) (OffsetForLeaderPartition23.first 2) (fun r y => r = OffsetForLeaderPartition23.first 1 y))
    |>.andThen (.field Longer.int32 (fun _ => rfl) (fun _ _ => rfl) (fun _ _ => rfl) (fun _ => rfl) : Parts (KDec.field Dec.int32 0 (fun t x => { t with LeaderEpoch := x })) (OffsetForLeaderPartition23.first 2) (OffsetForLeaderPartition23.first 3) (fun r y => r = OffsetForLeaderPartition23.first 2 y))
theorem OffsetForLeaderPartition23.filled (version : Int16) : FilledStep 12 12 (OffsetForLeaderPartition23.decode version) :=
  ((FilledStep.field .int32)
    |>.andThen (FilledStep.onlyIf (FilledStep.field .int32))
    |>.andThen (FilledStep.field .int32)).mono (by decide) (by decide)
theorem OffsetForLeaderPartition23.part_of (r y : OffsetForLeaderPartition23) (h : (((r = OffsetForLeaderPartition23.first 0 y) ∨ (r = OffsetForLeaderPartition23.first 1 y)) ∨ (r = OffsetForLeaderPartition23.first 2 y))) : OffsetForLeaderPartition23.Part r y :=
  match h with
    | (.inl (.inl h)) => ⟨0, by decide, h⟩
    | (.inl (.inr h)) => ⟨1, by decide, h⟩
    | (.inr h) => ⟨2, by decide, h⟩
theorem OffsetForLeaderPartition23.keeps_holds : OffsetForLeaderPartition23.keeps.Holds OffsetForLeaderPartition23.layout :=
  KeptMsg.holds OffsetForLeaderPartition23.lawful OffsetForLeaderPartition23.sameK (stop := fun v t => OffsetForLeaderPartition23.ends v t 2) (c := fun v t => OffsetForLeaderPartition23.cutAt v t 0) (fun _ _ _ => rfl) OffsetForLeaderPartition23.cutsK (c0 := OffsetForLeaderPartition23.first 0) rfl OffsetForLeaderPartition23.partsK OffsetForLeaderPartition23.part_of OffsetForLeaderPartition23.filled (by decide) (by decide)

/-- message/messages.gen.go:6398-6418 `OffsetForLeaderTopic23.Decode`, with the receiver kept -/
def OffsetForLeaderTopic23.decodeK (version : Int16) : KDec OffsetForLeaderTopic23 :=
    KDec.field Dec.string [] (fun t x => { t with Name := x }) ;|>
    KDec.fieldStructs (OffsetForLeaderPartition23.decodeK version {}) {} (fun t x => { t with Partitions := x })

/-- Where the fields of `OffsetForLeaderTopic23` end. -/
def OffsetForLeaderTopic23.ends (version : Int16) (t : OffsetForLeaderTopic23) : Nat → Nat :=
  Cut.ends 0 [Wire.string t.Name,
    Wire.array (OffsetForLeaderPartition23.wire version) t.Partitions]

/-- What is left of `t` if only its first `n` bytes are there. -/
def OffsetForLeaderTopic23.cut (version : Int16) (n : Nat) (t : OffsetForLeaderTopic23) : OffsetForLeaderTopic23 :=
  { Name := Cut.field n (t.ends version 0) t.Name [],
    Partitions := Cut.array n (t.ends version 0) (OffsetForLeaderPartition23.wire version) (fun x => x.seen version {}) {} t.Partitions }

/-- The same after the first `k` statements of `Decode`. -/
def OffsetForLeaderTopic23.cutAt (version : Int16) (t : OffsetForLeaderTopic23) (k n : Nat) : OffsetForLeaderTopic23 :=
  { Name := upto k 0 (Cut.field n (t.ends version 0) t.Name []) [],
    Partitions := upto k 1 (Cut.array n (t.ends version 0) (OffsetForLeaderPartition23.wire version) (fun x => x.seen version {}) {} t.Partitions) none }

/-- The first `k` fields of `y`, and zeros. -/
def OffsetForLeaderTopic23.first (k : Nat) (y : OffsetForLeaderTopic23) : OffsetForLeaderTopic23 :=
  { Name := upto k 0 y.Name [],
    Partitions := upto k 1 y.Partitions none }

/-- `r` is a beginning of `y`, and zeros. -/
def OffsetForLeaderTopic23.Part (r y : OffsetForLeaderTopic23) : Prop :=
  (∃ k, k < 2 ∧ r = y.first k) ∨
    Cut.begun {} (fun t => t.Partitions) (fun t x => { t with Partitions := x }) (OffsetForLeaderTopic23.first 1) r y

/-- `OffsetForLeaderTopic23` with its receiver kept. -/
def OffsetForLeaderTopic23.keeps : KeptMsg OffsetForLeaderTopic23.type := { decode := OffsetForLeaderTopic23.decodeK, cut := OffsetForLeaderTopic23.cut, Part := OffsetForLeaderTopic23.Part }

theorem OffsetForLeaderTopic23.sameK (version : Int16) : KStep (OffsetForLeaderTopic23.decodeK version) (OffsetForLeaderTopic23.decode version) :=
  (KStep.field)
    |>.andThen (KStep.structs (fun _ => rfl) (OffsetForLeaderPartition23.sameK version {}))
theorem OffsetForLeaderTopic23.cutsK (version : Int16) (t : OffsetForLeaderTopic23) (h : t.Fits version) :
    Cuts (OffsetForLeaderTopic23.decodeK version) 0 (OffsetForLeaderTopic23.wire version t) (OffsetForLeaderTopic23.ends version t 1) (OffsetForLeaderTopic23.cutAt version t 0) (OffsetForLeaderTopic23.cutAt version t 2) :=
  (.field (reads_string h.Name) (fun _ => rfl) (fun _ => rfl) : Cuts _ 0 _ (OffsetForLeaderTopic23.ends version t 0) (OffsetForLeaderTopic23.cutAt version t 0) (OffsetForLeaderTopic23.cutAt version t 1))
    |>.andThen (.structs (OffsetForLeaderPartition23.sameK version {}) (fun x hx => OffsetForLeaderPartition23.reads version x hx {}) h.Partitions (fun _ => rfl) (fun _ => rfl) : Cuts _ (OffsetForLeaderTopic23.ends version t 0) _ (OffsetForLeaderTopic23.ends version t 1) (OffsetForLeaderTopic23.cutAt version t 1) (OffsetForLeaderTopic23.cutAt version t 2))
theorem OffsetForLeaderTopic23.partsK (version : Int16) : Parts (OffsetForLeaderTopic23.decodeK version) (OffsetForLeaderTopic23.first 0) (OffsetForLeaderTopic23.first 2) (fun r y => ((r = OffsetForLeaderTopic23.first 0 y) ∨ (r = OffsetForLeaderTopic23.first 1 y ∨ Cut.begun {} (fun t => t.Partitions) (fun t x => { t with Partitions := x }) (OffsetForLeaderTopic23.first 1) r y))) :=
  (.field Longer.string (fun _ => rfl) (fun _ _ => rfl) (fun _ _ => rfl) (fun _ => rfl) : Parts (KDec.field Dec.string [] (fun t x => { t with Name := x })) (OffsetForLeaderTopic23.first 0) (OffsetForLeaderTopic23.first 1) (fun r y => r = OffsetForLeaderTopic23.first 0 y))
    |>.andThen (.structs (get := fun (t : OffsetForLeaderTopic23) => t.Partitions) ((OffsetForLeaderPartition23.partsK version).longer {}) (fun _ => rfl) (fun _ => rfl) (fun _ _ => rfl) (fun _ _ => rfl) (fun _ _ => rfl) (fun _ => rfl) (fun _ => rfl) : Parts (KDec.fieldStructs (OffsetForLeaderPartition23.decodeK version {}) {} (fun t x => { t with Partitions := x })) (OffsetForLeaderTopic23.first 1) (OffsetForLeaderTopic23.first 2) (fun r y => r = OffsetForLeaderTopic23.first 1 y ∨ Cut.begun {} (fun t => t.Partitions) (fun t x => { t with Partitions := x }) (OffsetForLeaderTopic23.first 1) r y))
theorem OffsetForLeaderTopic23.filled (version : Int16) : FilledStep 6 25769803792 (OffsetForLeaderTopic23.decode version) :=
  ((FilledStep.field .string)
    |>.andThen (FilledStep.structs (OffsetForLeaderPartition23.filled version {}))).mono (by decide) (by decide)
theorem OffsetForLeaderTopic23.part_of (r y : OffsetForLeaderTopic23) (h : ((r = OffsetForLeaderTopic23.first 0 y) ∨ (r = OffsetForLeaderTopic23.first 1 y ∨ Cut.begun {} (fun t => t.Partitions) (fun t x => { t with Partitions := x }) (OffsetForLeaderTopic23.first 1) r y))) : OffsetForLeaderTopic23.Part r y :=
  match h with
    | (.inl h) => .inl ⟨0, by decide, h⟩
    | (.inr (.inl h)) => .inl ⟨1, by decide, h⟩
    | (.inr (.inr h)) => (.inr h)
theorem OffsetForLeaderTopic23.keeps_holds : OffsetForLeaderTopic23.keeps.Holds OffsetForLeaderTopic23.layout :=
  KeptMsg.holds OffsetForLeaderTopic23.lawful OffsetForLeaderTopic23.sameK (stop := fun v t => OffsetForLeaderTopic23.ends v t 1) (c := fun v t => OffsetForLeaderTopic23.cutAt v t 0) (fun _ _ _ => rfl) OffsetForLeaderTopic23.cutsK (c0 := OffsetForLeaderTopic23.first 0) rfl OffsetForLeaderTopic23.partsK OffsetForLeaderTopic23.part_of OffsetForLeaderTopic23.filled (by decide) (by decide)

/-- message/messages.gen.go:6346-6368 `OffsetForLeaderEpochRequest.Decode`, with the receiver kept -/
def OffsetForLeaderEpochRequest.decodeK (version : Int16) : KDec OffsetForLeaderEpochRequest :=
    KDec.onlyIf (version ≥ 3) (KDec.field Dec.int32 0 (fun t x => { t with ReplicaId := x })) ;|>
    KDec.fieldStructs (OffsetForLeaderTopic23.decodeK version {}) {} (fun t x => { t with Topics := x })

/-- Where the fields of `OffsetForLeaderEpochRequest` end. -/
def OffsetForLeaderEpochRequest.ends (version : Int16) (t : OffsetForLeaderEpochRequest) : Nat → Nat :=
  Cut.ends 0 [Wire.when (version ≥ 3) (Wire.int32 t.ReplicaId),
    Wire.array (OffsetForLeaderTopic23.wire version) t.Topics]

/-- What is left of `t` if only its first `n` bytes are there. -/
def OffsetForLeaderEpochRequest.cut (version : Int16) (n : Nat) (t : OffsetForLeaderEpochRequest) : OffsetForLeaderEpochRequest :=
  { ReplicaId := Cut.gate (version ≥ 3) (Cut.field n (t.ends version 0) t.ReplicaId 0) 0,
    Topics := Cut.array n (t.ends version 0) (OffsetForLeaderTopic23.wire version) (fun x => x.seen version {}) {} t.Topics }

/-- The same after the first `k` statements of `Decode`. -/
def OffsetForLeaderEpochRequest.cutAt (version : Int16) (t : OffsetForLeaderEpochRequest) (k n : Nat) : OffsetForLeaderEpochRequest :=
  { ReplicaId := upto k 0 (Cut.gate (version ≥ 3) (Cut.field n (t.ends version 0) t.ReplicaId 0) 0) 0,
    Topics := upto k 1 (Cut.array n (t.ends version 0) (OffsetForLeaderTopic23.wire version) (fun x => x.seen version {}) {} t.Topics) none }

/-- The first `k` fields of `y`, and zeros. -/
def OffsetForLeaderEpochRequest.first (k : Nat) (y : OffsetForLeaderEpochRequest) : OffsetForLeaderEpochRequest :=
  { ReplicaId := upto k 0 y.ReplicaId 0,
    Topics := upto k 1 y.Topics none }

/-- `r` is a beginning of `y`, and zeros. -/
def OffsetForLeaderEpochRequest.Part (r y : OffsetForLeaderEpochRequest) : Prop :=
  (∃ k, k < 2 ∧ r = y.first k) ∨
    Cut.begun {} (fun t => t.Topics) (fun t x => { t with Topics := x }) (OffsetForLeaderEpochRequest.first 1) r y

/-- `OffsetForLeaderEpochRequest` with its receiver kept. -/
def OffsetForLeaderEpochRequest.keeps : KeptMsg OffsetForLeaderEpochRequest.type := { decode := OffsetForLeaderEpochRequest.decodeK, cut := OffsetForLeaderEpochRequest.cut, Part := OffsetForLeaderEpochRequest.Part }

theorem OffsetForLeaderEpochRequest.sameK (version : Int16) : KStep (OffsetForLeaderEpochRequest.decodeK version) (OffsetForLeaderEpochRequest.decode version) :=
  (KStep.onlyIf (KStep.field))
    |>.andThen (KStep.structs (fun _ => rfl) (OffsetForLeaderTopic23.sameK version {}))
theorem OffsetForLeaderEpochRequest.cutsK (version : Int16) (t : OffsetForLeaderEpochRequest) (h : t.Fits version) :
    Cuts (OffsetForLeaderEpochRequest.decodeK version) 0 (OffsetForLeaderEpochRequest.wire version t) (OffsetForLeaderEpochRequest.ends version t 1) (OffsetForLeaderEpochRequest.cutAt version t 0) (OffsetForLeaderEpochRequest.cutAt version t 2) :=
  (.optField (fun _ => reads_int32 t.ReplicaId) (fun _ => rfl) (fun _ => rfl) : Cuts _ 0 _ (OffsetForLeaderEpochRequest.ends version t 0) (OffsetForLeaderEpochRequest.cutAt version t 0) (OffsetForLeaderEpochRequest.cutAt version t 1))
    |>.andThen (.structs (OffsetForLeaderTopic23.sameK version {}) (fun x hx => OffsetForLeaderTopic23.reads version x hx {}) h.Topics (fun _ => rfl) (fun _ => rfl) : Cuts _ (OffsetForLeaderEpochRequest.ends version t 0) _ (OffsetForLeaderEpochRequest.ends version t 1) (OffsetForLeaderEpochRequest.cutAt version t 1) (OffsetForLeaderEpochRequest.cutAt version t 2))
theorem OffsetForLeaderEpochRequest.partsK (version : Int16) : Parts (OffsetForLeaderEpochRequest.decodeK version) (OffsetForLeaderEpochRequest.first 0) (OffsetForLeaderEpochRequest.first 2) (fun r y => ((r = OffsetForLeaderEpochRequest.first 0 y) ∨ (r = OffsetForLeaderEpochRequest.first 1 y ∨ Cut.begun {} (fun t => t.Topics) (fun t x => { t with Topics := x }) (OffsetForLeaderEpochRequest.first 1) r y))) :=
  (.onlyIf (.field Longer.int32 (fun _ => rfl) (fun _ _ => rfl) (fun _ _ => rfl) (fun _ => rfl)) (fun _ => rfl) : Parts (KDec.onlyIf (version ≥ 3) (KDec.field Dec.int32 0 (fun t x => { t with ReplicaId := x }))) (OffsetForLeaderEpochRequest.first 0) (OffsetForLeaderEpochRequest.first 1) (fun r y => r = OffsetForLeaderEpochRequest.first 0 y))
    |>.andThen (.structs (get := fun (t : OffsetForLeaderEpochRequest) => t.Topics) ((OffsetForLeaderTopic23.partsK version).longer {}) (fun _ => rfl) (fun _ => rfl) (fun _ _ => rfl) (fun _ _ => rfl) (fun _ _ => rfl) (fun _ => rfl) (fun _ => rfl) : Parts (KDec.fieldStructs (OffsetForLeaderTopic23.decodeK version {}) {} (fun t x => { t with Topics := x })) (OffsetForLeaderEpochRequest.first 1) (OffsetForLeaderEpochRequest.first 2) (fun r y => r = OffsetForLeaderEpochRequest.first 1 y ∨ Cut.begun {} (fun t => t.Topics) (fun t x => { t with Topics := x }) (OffsetForLeaderEpochRequest.first 1) r y))
theorem OffsetForLeaderEpochRequest.filled (version : Int16) : FilledStep 8 38654705684 (OffsetForLeaderEpochRequest.decode version) :=
  ((FilledStep.onlyIf (FilledStep.field .int32))
    |>.andThen (FilledStep.structs (OffsetForLeaderTopic23.filled version {}))).mono (by decide) (by decide)
theorem OffsetForLeaderEpochRequest.part_of (r y : OffsetForLeaderEpochRequest) (h : ((r = OffsetForLeaderEpochRequest.first 0 y) ∨ (r = OffsetForLeaderEpochRequest.first 1 y ∨ Cut.begun {} (fun t => t.Topics) (fun t x => { t with Topics := x }) (OffsetForLeaderEpochRequest.first 1) r y))) : OffsetForLeaderEpochRequest.Part r y :=
  match h with
    | (.inl h) => .inl ⟨0, by decide, h⟩
    | (.inr (.inl h)) => .inl ⟨1, by decide, h⟩
    | (.inr (.inr h)) => (.inr h)
theorem OffsetForLeaderEpochRequest.keeps_holds : OffsetForLeaderEpochRequest.keeps.Holds OffsetForLeaderEpochRequest.layout :=
  KeptMsg.holds OffsetForLeaderEpochRequest.lawful OffsetForLeaderEpochRequest.sameK (stop := fun v t => OffsetForLeaderEpochRequest.ends v t 1) (c := fun v t => OffsetForLeaderEpochRequest.cutAt v t 0) (fun _ _ _ => rfl) OffsetForLeaderEpochRequest.cutsK (c0 := OffsetForLeaderEpochRequest.first 0) rfl OffsetForLeaderEpochRequest.partsK OffsetForLeaderEpochRequest.part_of OffsetForLeaderEpochRequest.filled (by decide) (by decide)

/-- message/messages.gen.go:6603-6624 `OffsetForLeaderPartitionResult23.Decode`, with the receiver kept -/
def OffsetForLeaderPartitionResult23.decodeK (version : Int16) : KDec OffsetForLeaderPartitionResult23 :=
    KDec.field Dec.int16 0 (fun t x => { t with ErrorCode := x }) ;|>
    KDec.field Dec.int32 0 (fun t x => { t with PartitionIndex := x }) ;|>
    KDec.onlyIf (version ≥ 1) (KDec.field Dec.int32 0 (fun t x => { t with LeaderEpoch := x })) ;|>
    KDec.field Dec.int64 0 (fun t x => { t with EndOffset := x })

/-- Where the fields of `OffsetForLeaderPartitionResult23` end. -/
def OffsetForLeaderPartitionResult23.ends (version : Int16) (t : OffsetForLeaderPartitionResult23) : Nat → Nat :=
  Cut.ends 0 [Wire.int16 t.ErrorCode,
    Wire.int32 t.PartitionIndex,
    Wire.when (version ≥ 1) (Wire.int32 t.LeaderEpoch),
    Wire.int64 t.EndOffset]

/-- What is left of `t` if only its first `n` bytes are there. -/
def OffsetForLeaderPartitionResult23.cut (version : Int16) (n : Nat) (t : OffsetForLeaderPartitionResult23) : OffsetForLeaderPartitionResult23 :=
  { ErrorCode := Cut.field n (t.ends version 0) t.ErrorCode 0,
    PartitionIndex := Cut.field n (t.ends version 1) t.PartitionIndex 0,
    LeaderEpoch := Cut.gate (version ≥ 1) (Cut.field n (t.ends version 2) t.LeaderEpoch 0) 0,
    EndOffset := Cut.field n (t.ends version 3) t.EndOffset 0 }

/-- The same after the first `k` statements of `Decode`. -/
def OffsetForLeaderPartitionResult23.cutAt (version : Int16) (t : OffsetForLeaderPartitionResult23) (k n : Nat) : OffsetForLeaderPartitionResult23 :=
  { ErrorCode := upto k 0 (Cut.field n (t.ends version 0) t.ErrorCode 0) 0,
    PartitionIndex := upto k 1 (Cut.field n (t.ends version 1) t.PartitionIndex 0) 0,
    LeaderEpoch := upto k 2 (Cut.gate (version ≥ 1) (Cut.field n (t.ends version 2) t.LeaderEpoch 0) 0) 0,
    EndOffset := upto k 3 (Cut.field n (t.ends version 3) t.EndOffset 0) 0 }

/-- The first `k` fields of `y`, and zeros. -/
def OffsetForLeaderPartitionResult23.first (k : Nat) (y : OffsetForLeaderPartitionResult23) : OffsetForLeaderPartitionResult23 :=
  { ErrorCode := upto k 0 y.ErrorCode 0,
    PartitionIndex := upto k 1 y.PartitionIndex 0,
    LeaderEpoch := upto k 2 y.LeaderEpoch 0,
    EndOffset := upto k 3 y.EndOffset 0 }

/-- `r` is a beginning of `y`, and zeros. -/
def OffsetForLeaderPartitionResult23.Part (r y : OffsetForLeaderPartitionResult23) : Prop :=
  (∃ k, k < 4 ∧ r = y.first k)

/-- `OffsetForLeaderPartitionResult23` with its receiver kept. -/
def OffsetForLeaderPartitionResult23.keeps : KeptMsg OffsetForLeaderPartitionResult23.type := { decode := OffsetForLeaderPartitionResult23.decodeK, cut := OffsetForLeaderPartitionResult23.cut, Part := OffsetForLeaderPartitionResult23.Part }

theorem OffsetForLeaderPartitionResult23.sameK (version : Int16) : KStep (OffsetForLeaderPartitionResult23.decodeK version) (OffsetForLeaderPartitionResult23.decode version) :=
  (KStep.field)
    |>.andThen (KStep.field)
    |>.andThen (KStep.onlyIf (KStep.field))
    |>.andThen (KStep.field)
theorem OffsetForLeaderPartitionResult23.cutsK (version : Int16) (t : OffsetForLeaderPartitionResult23) (h : t.Fits version) :
    Cuts (OffsetForLeaderPartitionResult23.decodeK version) 0 (OffsetForLeaderPartitionResult23.wire version t) (OffsetForLeaderPartitionResult23.ends version t 3) (OffsetForLeaderPartitionResult23.cutAt version t 0) (OffsetForLeaderPartitionResult23.cutAt version t 4) :=
  (.field (reads_int16 t.ErrorCode) (fun _ => rfl) (fun _ => rfl) : Cuts _ 0 _ (OffsetForLeaderPartitionResult23.ends version t 0) (OffsetForLeaderPartitionResult23.cutAt version t 0) (OffsetForLeaderPartitionResult23.cutAt version t 1))
    |>.andThen (.field (reads_int32 t.PartitionIndex) (fun _ => rfl) (fun _ => rfl) : Cuts _ (OffsetForLeaderPartitionResult23.ends version t 0) _ (OffsetForLeaderPartitionResult23.ends version t 1) (OffsetForLeaderPartitionResult23.cutAt version t 1) (OffsetForLeaderPartitionResult23.cutAt version t 2))
    |>.andThen (.optField (fun _ => reads_int32 t.LeaderEpoch) (fun _ => rfl) (fun _ => rfl) : Cuts _ (OffsetForLeaderPartitionResult23.ends version t 1) _ (OffsetForLeaderPartitionResult23.ends version t 2) (OffsetForLeaderPartitionResult23.cutAt version t 2) (OffsetForLeaderPartitionResult23.cutAt version t 3))
    |>.andThen (.field (reads_int64 t.EndOffset) (fun _ => rfl) (fun _ => rfl) : Cuts _ (OffsetForLeaderPartitionResult23.ends version t 2) _ (OffsetForLeaderPartitionResult23.ends version t 3) (OffsetForLeaderPartitionResult23.cutAt version t 3) (OffsetForLeaderPartitionResult23.cutAt version t 4))
theorem OffsetForLeaderPartitionResult23.partsK (version : Int16) : Parts (OffsetForLeaderPartitionResult23.decodeK version) (OffsetForLeaderPartitionResult23.first 0) (OffsetForLeaderPartitionResult23.first 4) (fun r y => ((((r = OffsetForLeaderPartitionResult23.first 0 y) ∨ (r = OffsetForLeaderPartitionResult23.first 1 y)) ∨ (r = OffsetForLeaderPartitionResult23.first 2 y)) ∨ (r = OffsetForLeaderPartitionResult23.first 3 y))) :=
  (.field Longer.int16 (fun _ => rfl) (fun _ _ => rfl) (fun _ _ => rfl) (fun _ => rfl) : Parts (KDec.field Dec.int16 0 (fun t x => { t with ErrorCode := x })) (OffsetForLeaderPartitionResult23.first 0) (OffsetForLeaderPartitionResult23.first 1) (fun r y => r = OffsetForLeaderPartitionResult23.first 0 y))
    |>.andThen (.field Longer.int32 (fun _ => rfl) (fun _ _ => rfl) (fun _ _ => rfl) (fun _ => rfl) : Parts (KDec.field Dec.int32 0 (fun t x => { t with PartitionIndex := x })) (OffsetForLeaderPartitionResult23.first 1) (OffsetForLeaderPartitionResult23.first 2) (fun r y => r = OffsetForLeaderPartitionResult23.first 1 y))
    |>.andThen (.onlyIf (.field Longer.int32 (fun _ => rfl) (fun _ _ => rfl) (fun _ _ => rfl) (fun _ => rfl)) (fun _ => rfl) : Parts (KDec.onlyIf (version ≥ 1) (KDec.field Dec.int32 0 (fun t x => { t with LeaderEpoch := x }))) (OffsetForLeaderPartitionResult23.first 2) (OffsetForLeaderPartitionResult23.first 3) (fun r y => r = OffsetForLeaderPartitionResult23.first 2 y))
    |>.andThen (.field Longer.int64 (fun _ => rfl) (fun _ _ => rfl) (fun _ _ => rfl) (fun _ => rfl) : Parts (KDec.field Dec.int64 0 (fun t x => { t with EndOffset := x })) (OffsetForLeaderPartitionResult23.first 3) (OffsetForLeaderPartitionResult23.first 4) (fun r y => r = OffsetForLeaderPartitionResult23.first 3 y))
theorem OffsetForLeaderPartitionResult23.filled (version : Int16) : FilledStep 18 18 (OffsetForLeaderPartitionResult23.decode version) :=
  ((FilledStep.field .int16)
    |>.andThen (FilledStep.field .int32)
    |>.andThen (FilledStep.onlyIf (FilledStep.field .int32))
    |>.andThen (FilledStep.field .int64)).mono (by decide) (by decide)
theorem OffsetForLeaderPartitionResult23.part_of (r y : OffsetForLeaderPartitionResult23) (h : ((((r = OffsetForLeaderPartitionResult23.first 0 y) ∨ (r = OffsetForLeaderPartitionResult23.first 1 y)) ∨ (r = OffsetForLeaderPartitionResult23.first 2 y)) ∨ (r = OffsetForLeaderPartitionResult23.first 3 y))) : OffsetForLeaderPartitionResult23.Part r y :=
  match h with
    | (.inl (.inl (.inl h))) => ⟨0, by decide, h⟩
    | (.inl (.inl (.inr h))) => ⟨1, by decide, h⟩
    | (.inl (.inr h)) => ⟨2, by decide, h⟩
    | (.inr h) => ⟨3, by decide, h⟩
theorem OffsetForLeaderPartitionResult23.keeps_holds : OffsetForLeaderPartitionResult23.keeps.Holds OffsetForLeaderPartitionResult23.layout :=
  KeptMsg.holds OffsetForLeaderPartitionResult23.lawful OffsetForLeaderPartitionResult23.sameK (stop := fun v t => OffsetForLeaderPartitionResult23.ends v t 3) (c := fun v t => OffsetForLeaderPartitionResult23.cutAt v t 0) (fun _ _ _ => rfl) OffsetForLeaderPartitionResult23.cutsK (c0 := OffsetForLeaderPartitionResult23.first 0) rfl OffsetForLeaderPartitionResult23.partsK OffsetForLeaderPartitionResult23.part_of OffsetForLeaderPartitionResult23.filled (by decide) (by decide)

/-- message/messages.gen.go:6551-6571 `OffsetForLeaderTopicResult23.Decode`, with the receiver kept -/
def OffsetForLeaderTopicResult23.decodeK (version : Int16) : KDec OffsetForLeaderTopicResult23 :=
    KDec.field Dec.string [] (fun t x => { t with Name := x }) ;|>
    KDec.fieldStructs (OffsetForLeaderPartitionResult23.decodeK version {}) {} (fun t x => { t with Partitions := x })

/-- Where the fields of `OffsetForLeaderTopicResult23` end. -/
def OffsetForLeaderTopicResult23.ends (version : Int16) (t : OffsetForLeaderTopicResult23) : Nat → Nat :=
  Cut.ends 0 [Wire.string t.Name,
    Wire.array (OffsetForLeaderPartitionResult23.wire version) t.Partitions]

/-- What is left of `t` if only its first `n` bytes are there. -/
def OffsetForLeaderTopicResult23.cut (version : Int16) (n : Nat) (t : OffsetForLeaderTopicResult23) : OffsetForLeaderTopicResult23 :=
  { Name := Cut.field n (t.ends version 0) t.Name [],
    Partitions := Cut.array n (t.ends version 0) (OffsetForLeaderPartitionResult23.wire version) (fun x => x.seen version {}) {} t.Partitions }

/-- The same after the first `k` statements of `Decode`. -/
def OffsetForLeaderTopicResult23.cutAt (version : Int16) (t : OffsetForLeaderTopicResult23) (k n : Nat) : OffsetForLeaderTopicResult23 :=
  { Name := upto k 0 (Cut.field n (t.ends version 0) t.Name []) [],
    Partitions := upto k 1 (Cut.array n (t.ends version 0) (OffsetForLeaderPartitionResult23.wire version) (fun x => x.seen version {}) {} t.Partitions) none }

/-- The first `k` fields of `y`, and zeros. -/
def OffsetForLeaderTopicResult23.first (k : Nat) (y : OffsetForLeaderTopicResult23) : OffsetForLeaderTopicResult23 :=
  { Name := upto k 0 y.Name [],
    Partitions := upto k 1 y.Partitions none }

/-- `r` is a beginning of `y`, and zeros. -/
def OffsetForLeaderTopicResult23.Part (r y : OffsetForLeaderTopicResult23) : Prop :=
  (∃ k, k < 2 ∧ r = y.first k) ∨
    Cut.begun {} (fun t => t.Partitions) (fun t x => { t with Partitions := x }) (OffsetForLeaderTopicResult23.first 1) r y

/-- `OffsetForLeaderTopicResult23` with its receiver kept. -/
def OffsetForLeaderTopicResult23.keeps : KeptMsg OffsetForLeaderTopicResult23.type := { decode := OffsetForLeaderTopicResult23.decodeK, cut := OffsetForLeaderTopicResult23.cut, Part := OffsetForLeaderTopicResult23.Part }

theorem OffsetForLeaderTopicResult23.sameK (version : Int16) : KStep (OffsetForLeaderTopicResult23.decodeK version) (OffsetForLeaderTopicResult23.decode version) :=
  (KStep.field)
    |>.andThen (KStep.structs (fun _ => rfl) (OffsetForLeaderPartitionResult23.sameK version {}))
theorem OffsetForLeaderTopicResult23.cutsK (version : Int16) (t : OffsetForLeaderTopicResult23) (h : t.Fits version) :
    Cuts (OffsetForLeaderTopicResult23.decodeK version) 0 (OffsetForLeaderTopicResult23.wire version t) (OffsetForLeaderTopicResult23.ends version t 1) (OffsetForLeaderTopicResult23.cutAt version t 0) (OffsetForLeaderTopicResult23.cutAt version t 2) :=
  (.field (reads_string h.Name) (fun _ => rfl) (fun _ => rfl) : Cuts _ 0 _ (OffsetForLeaderTopicResult23.ends version t 0) (OffsetForLeaderTopicResult23.cutAt version t 0) (OffsetForLeaderTopicResult23.cutAt version t 1))
    |>.andThen (.structs (OffsetForLeaderPartitionResult23.sameK version {}) (fun x hx => OffsetForLeaderPartitionResult23.reads version x hx {}) h.Partitions (fun _ => rfl) (fun _ => rfl) : Cuts _ (OffsetForLeaderTopicResult23.ends version t 0) _ (OffsetForLeaderTopicResult23.ends version t 1) (OffsetForLeaderTopicResult23.cutAt version t 1) (OffsetForLeaderTopicResult23.cutAt version t 2))
theorem OffsetForLeaderTopicResult23.partsK (version : Int16) : Parts (OffsetForLeaderTopicResult23.decodeK version) (OffsetForLeaderTopicResult23.first 0) (OffsetForLeaderTopicResult23.first 2) (fun r y => ((r = OffsetForLeaderTopicResult23.first 0 y) ∨ (r = OffsetForLeaderTopicResult23.first 1 y ∨ Cut.begun {} (fun t => t.Partitions) (fun t x => { t with Partitions := x }) (OffsetForLeaderTopicResult23.first 1) r y))) :=
  (.field Longer.string (fun _ => rfl) (fun _ _ => rfl) (fun _ _ => rfl) (fun _ => rfl) : Parts (KDec.field Dec.string [] (fun t x => { t with Name := x })) (OffsetForLeaderTopicResult23.first 0) (OffsetForLeaderTopicResult23.first 1) (fun r y => r = OffsetForLeaderTopicResult23.first 0 y))
    |>.andThen (.structs (get := fun (t : OffsetForLeaderTopicResult23) => t.Partitions) ((OffsetForLeaderPartitionResult23.partsK version).longer {}) (fun _ => rfl) (fun _ => rfl) (fun _ _ => rfl) (fun _ _ => rfl) (fun _ _ => rfl) (fun _ => rfl) (fun _ => rfl) : Parts (KDec.fieldStructs (OffsetForLeaderPartitionResult23.decodeK version {}) {} (fun t x => { t with Partitions := x })) (OffsetForLeaderTopicResult23.first 1) (OffsetForLeaderTopicResult23.first 2) (fun r y => r = OffsetForLeaderTopicResult23.first 1 y ∨ Cut.begun {} (fun t => t.Partitions) (fun t x => { t with Partitions := x }) (OffsetForLeaderTopicResult23.first 1) r y))
theorem OffsetForLeaderTopicResult23.filled (version : Int16) : FilledStep 6 38654705686 (OffsetForLeaderTopicResult23.decode version) :=
  ((FilledStep.field .string)
    |>.andThen (FilledStep.structs (OffsetForLeaderPartitionResult23.filled version {}))).mono (by decide) (by decide)
theorem OffsetForLeaderTopicResult23.part_of (r y : OffsetForLeaderTopicResult23) (h : ((r = OffsetForLeaderTopicResult23.first 0 y) ∨ (r = OffsetForLeaderTopicResult23.first 1 y ∨ Cut.begun {} (fun t => t.Partitions) (fun t x => { t with Partitions := x }) (OffsetForLeaderTopicResult23.first 1) r y))) : OffsetForLeaderTopicResult23.Part r y :=
  match h with
    | (.inl h) => .inl ⟨0, by decide, h⟩
    | (.inr (.inl h)) => .inl ⟨1, by decide, h⟩
    | (.inr (.inr h)) => (.inr h)
theorem OffsetForLeaderTopicResult23.keeps_holds : OffsetForLeaderTopicResult23.keeps.Holds OffsetForLeaderTopicResult23.layout :=
  KeptMsg.holds OffsetForLeaderTopicResult23.lawful OffsetForLeaderTopicResult23.sameK (stop := fun v t => OffsetForLeaderTopicResult23.ends v t 1) (c := fun v t => OffsetForLeaderTopicResult23.cutAt v t 0) (fun _ _ _ => rfl) OffsetForLeaderTopicResult23.cutsK (c0 := OffsetForLeaderTopicResult23.first 0) rfl OffsetForLeaderTopicResult23.partsK OffsetForLeaderTopicResult23.part_of OffsetForLeaderTopicResult23.filled (by decide) (by decide)

/-- message/messages.gen.go:6499-6521 `OffsetForLeaderEpochResponse.Decode`, with the receiver kept -/
def OffsetForLeaderEpochResponse.decodeK (version : Int16) : KDec OffsetForLeaderEpochResponse :=
    KDec.onlyIf (version ≥ 2) (KDec.field Dec.int32 0 (fun t x => { t with ThrottleTimeMs := x })) ;|>
    KDec.fieldStructs (OffsetForLeaderTopicResult23.decodeK version {}) {} (fun t x => { t with Topics := x })

/-- Where the fields of `OffsetForLeaderEpochResponse` end. -/
def OffsetForLeaderEpochResponse.ends (version : Int16) (t : OffsetForLeaderEpochResponse) : Nat → Nat :=
  Cut.ends 0 [Wire.when (version ≥ 2) (Wire.int32 t.ThrottleTimeMs),
    Wire.array (OffsetForLeaderTopicResult23.wire version) t.Topics]

/-- What is left of `t` if only its first `n` bytes are there. -/
def OffsetForLeaderEpochResponse.cut (version : Int16) (n : Nat) (t : OffsetForLeaderEpochResponse) : OffsetForLeaderEpochResponse :=
  { ThrottleTimeMs := Cut.gate (version ≥ 2) (Cut.field n (t.ends version 0) t.ThrottleTimeMs 0) 0,
    Topics := Cut.array n (t.ends version 0) (OffsetForLeaderTopicResult23.wire version) (fun x => x.seen version {}) {} t.Topics }

/-- The same after the first `k` statements of `Decode`. -/
def OffsetForLeaderEpochResponse.cutAt (version : Int16) (t : OffsetForLeaderEpochResponse) (k n : Nat) : OffsetForLeaderEpochResponse :=
  { ThrottleTimeMs := upto k 0 (Cut.gate (version ≥ 2) (Cut.field n (t.ends version 0) t.ThrottleTimeMs 0) 0) 0,
    Topics := upto k 1 (Cut.array n (t.ends version 0) (OffsetForLeaderTopicResult23.wire version) (fun x => x.seen version {}) {} t.Topics) none }

/-- The first `k` fields of `y`, and zeros. -/
def OffsetForLeaderEpochResponse.first (k : Nat) (y : OffsetForLeaderEpochResponse) : OffsetForLeaderEpochResponse :=
  { ThrottleTimeMs := upto k 0 y.ThrottleTimeMs 0,
    Topics := upto k 1 y.Topics none }

/-- `r` is a beginning of `y`, and zeros. -/
def OffsetForLeaderEpochResponse.Part (r y : OffsetForLeaderEpochResponse) : Prop :=
  (∃ k, k < 2 ∧ r = y.first k) ∨
    Cut.begun {} (fun t => t.Topics) (fun t x => { t with Topics := x }) (OffsetForLeaderEpochResponse.first 1) r y

/-- `OffsetForLeaderEpochResponse` with its receiver kept. -/
def OffsetForLeaderEpochResponse.keeps : KeptMsg OffsetForLeaderEpochResponse.type := { decode := OffsetForLeaderEpochResponse.decodeK, cut := OffsetForLeaderEpochResponse.cut, Part := OffsetForLeaderEpochResponse.Part }

theorem OffsetForLeaderEpochResponse.sameK (version : Int16) : KStep (OffsetForLeaderEpochResponse.decodeK version) (OffsetForLeaderEpochResponse.decode version) :=
  (KStep.onlyIf (KStep.field))
    |>.andThen (KStep.structs (fun _ => rfl) (OffsetForLeaderTopicResult23.sameK version {}))
theorem OffsetForLeaderEpochResponse.cutsK (version : Int16) (t : OffsetForLeaderEpochResponse) (h : t.Fits version) :
    Cuts (OffsetForLeaderEpochResponse.decodeK version) 0 (OffsetForLeaderEpochResponse.wire version t) (OffsetForLeaderEpochResponse.ends version t 1) (OffsetForLeaderEpochResponse.cutAt version t 0) (OffsetForLeaderEpochResponse.cutAt version t 2) :=
  (.optField (fun _ => reads_int32 t.ThrottleTimeMs) (fun _ => rfl) (fun _ => rfl) : Cuts _ 0 _ (OffsetForLeaderEpochResponse.ends version t 0) (OffsetForLeaderEpochResponse.cutAt version t 0) (OffsetForLeaderEpochResponse.cutAt version t 1))
    |>.andThen (.structs (OffsetForLeaderTopicResult23.sameK version {}) (fun x hx => OffsetForLeaderTopicResult23.reads version x hx {}) h.Topics (fun _ => rfl) (fun _ => rfl) : Cuts _ (OffsetForLeaderEpochResponse.ends version t 0) _ (OffsetForLeaderEpochResponse.ends version t 1) (OffsetForLeaderEpochResponse.cutAt version t 1) (OffsetForLeaderEpochResponse.cutAt version t 2))
theorem OffsetForLeaderEpochResponse.partsK (version : Int16) : Parts (OffsetForLeaderEpochResponse.decodeK version) (OffsetForLeaderEpochResponse.first 0) (OffsetForLeaderEpochResponse.first 2) (fun r y => ((r = OffsetForLeaderEpochResponse.first 0 y) ∨ (r = OffsetForLeaderEpochResponse.first 1 y ∨ Cut.begun {} (fun t => t.Topics) (fun t x => { t with Topics := x }) (OffsetForLeaderEpochResponse.first 1) r y))) :=
  (.onlyIf (.field Longer.int32 (fun _ => rfl) (fun _ _ => rfl) (fun _ _ => rfl) (fun _ => rfl)) (fun _ => rfl) : Parts (KDec.onlyIf (version ≥ 2) (KDec.field Dec.int32 0 (fun t x => { t with ThrottleTimeMs := x }))) (OffsetForLeaderEpochResponse.first 0) (OffsetForLeaderEpochResponse.first 1) (fun r y => r = OffsetForLeaderEpochResponse.first 0 y))
    |>.andThen (.structs (get := fun (t : OffsetForLeaderEpochResponse) => t.Topics) ((OffsetForLeaderTopicResult23.partsK version).longer {}) (fun _ => rfl) (fun _ => rfl) (fun _ _ => rfl) (fun _ _ => rfl) (fun _ _ => rfl) (fun _ => rfl) (fun _ => rfl) : Parts (KDec.fieldStructs (OffsetForLeaderTopicResult23.decodeK version {}) {} (fun t x => { t with Topics := x })) (OffsetForLeaderEpochResponse.first 1) (OffsetForLeaderEpochResponse.first 2) (fun r y => r = OffsetForLeaderEpochResponse.first 1 y ∨ Cut.begun {} (fun t => t.Topics) (fun t x => { t with Topics := x }) (OffsetForLeaderEpochResponse.first 1) r y))
theorem OffsetForLeaderEpochResponse.filled (version : Int16) : FilledStep 8 51539607578 (OffsetForLeaderEpochResponse.decode version) :=
  ((FilledStep.onlyIf (FilledStep.field .int32))
    |>.andThen (FilledStep.structs (OffsetForLeaderTopicResult23.filled version {}))).mono (by decide) (by decide)
theorem OffsetForLeaderEpochResponse.part_of (r y : OffsetForLeaderEpochResponse) (h : ((r = OffsetForLeaderEpochResponse.first 0 y) ∨ (r = OffsetForLeaderEpochResponse.first 1 y ∨ Cut.begun {} (fun t => t.Topics) (fun t x => { t with Topics := x }) (OffsetForLeaderEpochResponse.first 1) r y))) : OffsetForLeaderEpochResponse.Part r y :=
  match h with
    | (.inl h) => .inl ⟨0, by decide, h⟩
    | (.inr (.inl h)) => .inl ⟨1, by decide, h⟩
    | (.inr (.inr h)) => (.inr h)
theorem OffsetForLeaderEpochResponse.keeps_holds : OffsetForLeaderEpochResponse.keeps.Holds OffsetForLeaderEpochResponse.layout :=
  KeptMsg.holds OffsetForLeaderEpochResponse.lawful OffsetForLeaderEpochResponse.sameK (stop := fun v t => OffsetForLeaderEpochResponse.ends v t 1) (c := fun v t => OffsetForLeaderEpochResponse.cutAt v t 0) (fun _ _ _ => rfl) OffsetForLeaderEpochResponse.cutsK (c0 := OffsetForLeaderEpochResponse.first 0) rfl OffsetForLeaderEpochResponse.partsK OffsetForLeaderEpochResponse.part_of OffsetForLeaderEpochResponse.filled (by decide) (by decide)

/-- The structures of the OffsetForLeaderEpoch messages. -/
def keptOffsetForLeaderEpoch : List (Σ (M : MsgType) (_ : Layout M), KeptMsg M) :=
  [⟨OffsetForLeaderEpochRequest.type, OffsetForLeaderEpochRequest.layout, OffsetForLeaderEpochRequest.keeps⟩,
   ⟨OffsetForLeaderTopic23.type, OffsetForLeaderTopic23.layout, OffsetForLeaderTopic23.keeps⟩,
   ⟨OffsetForLeaderPartition23.type, OffsetForLeaderPartition23.layout, OffsetForLeaderPartition23.keeps⟩,
   ⟨OffsetForLeaderEpochResponse.type, OffsetForLeaderEpochResponse.layout, OffsetForLeaderEpochResponse.keeps⟩,
   ⟨OffsetForLeaderTopicResult23.type, OffsetForLeaderTopicResult23.layout, OffsetForLeaderTopicResult23.keeps⟩,
   ⟨OffsetForLeaderPartitionResult23.type, OffsetForLeaderPartitionResult23.layout, OffsetForLeaderPartitionResult23.keeps⟩]
theorem keptOffsetForLeaderEpoch_holds : ∀ p ∈ keptOffsetForLeaderEpoch, p.2.2.Holds p.2.1 := by
  unfold keptOffsetForLeaderEpoch
  simp only [List.forall_mem_cons]
  exact ⟨OffsetForLeaderEpochRequest.keeps_holds, OffsetForLeaderTopic23.keeps_holds, OffsetForLeaderPartition23.keeps_holds, OffsetForLeaderEpochResponse.keeps_holds, OffsetForLeaderTopicResult23.keeps_holds, OffsetForLeaderPartitionResult23.keeps_holds, fun _ h => absurd h (by simp)⟩

end Kafka.Msg
