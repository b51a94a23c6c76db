import Verif.Message.KeptLemmas
import Verif.Gen.Proof.Fetch
/-!
Generated by tools/gen_messages.py: what is in the Fetch messages after an error.
-/
set_option linter.unusedVariables false
namespace Kafka.Msg

/-- message/messages.gen.go:766-793 `FetchPartition1.Decode`, with the receiver kept -/
def FetchPartition1.decodeK (version : Int16) : KDec FetchPartition1 :=
    KDec.field Dec.int32 0 (fun t x => { t with PartitionIndex := x }) ;|>
    KDec.onlyIf (version ≥ 9) (KDec.field Dec.int32 0 (fun t x => { t with CurrentLeaderEpoch := x })) ;|>
    KDec.field Dec.int64 0 (fun t x => { t with FetchOffset := x }) ;|>
    KDec.onlyIf (version ≥ 5) (KDec.field Dec.int64 0 (fun t x => { t with LogStartOffset := x })) ;|>
    KDec.field Dec.int32 0 (fun t x => { t with MaxBytes := x })

/-- Where the fields of `FetchPartition1` end. -/
def FetchPartition1.ends (version : Int16) (t : FetchPartition1) : Nat → Nat :=
  Cut.ends 0 [Wire.int32 t.PartitionIndex,
    Wire.when (version ≥ 9) (Wire.int32 t.CurrentLeaderEpoch),
    Wire.int64 t.FetchOffset,
    Wire.when (version ≥ 5) (Wire.int64 t.LogStartOffset),
    Wire.int32 t.MaxBytes]

/-- What is left of `t` if only its first `n` bytes are there. -/
def FetchPartition1.cut (version : Int16) (n : Nat) (t : FetchPartition1) : FetchPartition1 :=
  { PartitionIndex := Cut.field n (t.ends version 0) t.PartitionIndex 0,
    CurrentLeaderEpoch := Cut.gate (version ≥ 9) (Cut.field n (t.ends version 1) t.CurrentLeaderEpoch 0) 0,
    FetchOffset := Cut.field n (t.ends version 2) t.FetchOffset 0,
    LogStartOffset := Cut.gate (version ≥ 5) (Cut.field n (t.ends version 3) t.LogStartOffset 0) 0,
    MaxBytes := Cut.field n (t.ends version 4) t.MaxBytes 0 }

/-- The same after the first `k` statements of `Decode`. -/
def FetchPartition1.cutAt (version : Int16) (t : FetchPartition1) (k n : Nat) : FetchPartition1 :=
  { PartitionIndex := upto k 0 (Cut.field n (t.ends version 0) t.PartitionIndex 0) 0,
    CurrentLeaderEpoch := upto k 1 (Cut.gate (version ≥ 9) (Cut.field n (t.ends version 1) t.CurrentLeaderEpoch 0) 0) 0,
    FetchOffset := upto k 2 (Cut.field n (t.ends version 2) t.FetchOffset 0) 0,
    LogStartOffset := upto k 3 (Cut.gate (version ≥ 5) (Cut.field n (t.ends version 3) t.LogStartOffset 0) 0) 0,
    MaxBytes := upto k 4 (Cut.field n (t.ends version 4) t.MaxBytes 0) 0 }

/-- The first `k` fields of `y`, and zeros. -/
def FetchPartition1.first (k : Nat) (y : FetchPartition1) : FetchPartition1 :=
  { PartitionIndex := upto k 0 y.PartitionIndex 0,
    CurrentLeaderEpoch := upto k 1 y.CurrentLeaderEpoch 0,
    FetchOffset := upto k 2 y.FetchOffset 0,
    LogStartOffset := upto k 3 y.LogStartOffset 0,
    MaxBytes := upto k 4 y.MaxBytes 0 }

/-- `r` is a beginning of `y`, and zeros. -/
def FetchPartition1.Part (r y : FetchPartition1) : Prop :=
  (∃ k, k < 5 ∧ r = y.first k)

/-- `FetchPartition1` with its receiver kept. -/
def FetchPartition1.keeps : KeptMsg FetchPartition1.type := { decode := FetchPartition1.decodeK, cut := FetchPartition1.cut, Part := FetchPartition1.Part }

theorem FetchPartition1.sameK (version : Int16) : KStep (FetchPartition1.decodeK version) (FetchPartition1.decode version) :=
  (KStep.field)
    |>.andThen (KStep.onlyIf (KStep.field))
    |>.andThen (KStep.field)
    |>.andThen (KStep.onlyIf (KStep.field))
    |>.andThen (KStep.field)
theorem FetchPartition1.cutsK (version : Int16) (t : FetchPartition1) (h : t.Fits version) :
    Cuts (FetchPartition1.decodeK version) 0 (FetchPartition1.wire version t) (FetchPartition1.ends version t 4) (FetchPartition1.cutAt version t 0) (FetchPartition1.cutAt version t 5) :=
  (.field (reads_int32 t.PartitionIndex) (fun _ => rfl) (fun _ => rfl) : Cuts _ 0 _ (FetchPartition1.ends version t 0) (FetchPartition1.cutAt version t 0) (FetchPartition1.cutAt version t 1))
    |>.andThen (.optField (fun _ => reads_int32 t.CurrentLeaderEpoch) (fun _ => rfl) (fun _ => rfl) : Cuts _ (FetchPartition1.ends version t 0) _ (FetchPartition1.ends version t 1) (FetchPartition1.cutAt version t 1) (FetchPartition1.cutAt version t 2))
    |>.andThen (.field (reads_int64 t.FetchOffset) (fun _ => rfl) (fun _ => rfl) : Cuts _ (FetchPartition1.ends version t 1) _ (FetchPartition1.ends version t 2) (FetchPartition1.cutAt version t 2) (FetchPartition1.cutAt version t 3))
    |>.andThen (.optField (fun _ => reads_int64 t.LogStartOffset) (fun _ => rfl) (fun _ => rfl) : Cuts _ (FetchPartition1.ends version t 2) _ (FetchPartition1.ends version t 3) (FetchPartition1.cutAt version t 3) (FetchPartition1.cutAt version t 4))
    |>.andThen (.field (reads_int32 t.MaxBytes) (fun _ => rfl) (fun _ => rfl) : Cuts _ (FetchPartition1.ends version t 3) _ (FetchPartition1.ends version t 4) (FetchPartition1.cutAt version t 4) (FetchPartition1.cutAt version t 5))
theorem FetchPartition1.partsK (version : Int16) : Parts (FetchPartition1.decodeK version) (FetchPartition1.first 0) (FetchPartition1.first 5) (fun r y => (((((r = FetchPartition1.first 0 y) ∨ (r = FetchPartition1.first 1 y)) ∨ (r = FetchPartition1.first 2 y)) ∨ (r = FetchPartition1.first 3 y)) ∨ (r = FetchPartition1.first 4 y))) :=
  (.field Longer.int32 (fun _ => rfl) (fun _ _ => rfl) (fun _ _ => rfl) (fun _ => rfl) : Parts (KDec.field Dec.int32 0 (fun t x => { t with PartitionIndex := x })) (FetchPartition1.first 0) (FetchPartition1.first 1) (fun r y => r = FetchPartition1.first 0 y))
    |>.andThen (.onlyIf (.field Longer.int32 (fun _ => rfl) (fun _ _ => rfl) (fun _ _ => rfl) (fun _ => rfl)) (fun _ => rfl) : Parts (KDec.onlyIf (version ≥ 9) (KDec.field Dec.int32 0 (fun t x => { t with CurrentLeaderEpoch := x }))) (FetchPartition1.first 1) (FetchPartition1.first 2) (fun r y => r = FetchPartition1.first 1 y))
    |>.andThen (.field Longer.int64 (fun _ => rfl) (fun _ _ => rfl) (fun _ _ => rfl) (fun _ => rfl) : Parts (KDec.field Dec.int64 0 (fun t x => { t with FetchOffset := x })) (FetchPartition1.first 2) (FetchPartition1.first 3) (fun r y => r = FetchPartition1.first 2 y))
    |>.andThen (.onlyIf (.field Longer.int64 (fun _ => rfl) (fun _ _ => rfl) (fun _ _ => rfl) (fun _ => rfl)) (fun _ => rfl) : Parts (KDec.onlyIf (version ≥ 5) (KDec.field Dec.int64 0 (fun t x => { t with LogStartOffset := x }))) (FetchPartition1.first 3) (FetchPartition1.first 4) (fun r y => r = FetchPartition1.first 3 y))
    |>.andThen (.field Longer.int32 (fun _ => rfl) (fun _ _ => rfl) (fun _ _ => rfl) (fun _ => rfl) : Parts (KDec.field Dec.int32 0 (fun t x => { t with MaxBytes := x })) (FetchPartition1.first 4) (FetchPartition1.first 5) (fun r y => r = FetchPartition1.first 4 y))
theorem FetchPartition1.filled (version : Int16) : FilledStep 28 28 (FetchPartition1.decode version) :=
  ((FilledStep.field .int32)
    |>.andThen (FilledStep.onlyIf (FilledStep.field .int32))
    |>.andThen (FilledStep.field .int64)
    |>.andThen (FilledStep.onlyIf (FilledStep.field .int64))
    |>.andThen (FilledStep.field .int32)).mono (by decide) (by decide)
theorem FetchPartition1.part_of (r y : FetchPartition1) (h : (((((r = FetchPartition1.first 0 y) ∨ (r = FetchPartition1.first 1 y)) ∨ (r = FetchPartition1.first 2 y)) ∨ (r = FetchPartition1.first 3 y)) ∨ (r = FetchPartition1.first 4 y))) : FetchPartition1.Part r y :=
  match h with
    | (.inl (.inl (.inl (.inl h)))) => ⟨0, by decide, h⟩
    | (.inl (.inl (.inl (.inr h)))) => ⟨1, by decide, h⟩
    | (.inl (.inl (.inr h))) => ⟨2, by decide, h⟩
    | (.inl (.inr h)) => ⟨3, by decide, h⟩
    | (.inr h) => ⟨4, by decide, h⟩
theorem FetchPartition1.keeps_holds : FetchPartition1.keeps.Holds FetchPartition1.layout :=
  KeptMsg.holds FetchPartition1.lawful FetchPartition1.sameK (stop := fun v t => FetchPartition1.ends v t 4) (c := fun v t => FetchPartition1.cutAt v t 0) (fun _ _ _ => rfl) FetchPartition1.cutsK (c0 := FetchPartition1.first 0) rfl FetchPartition1.partsK FetchPartition1.part_of FetchPartition1.filled (by decide) (by decide)

/-- message/messages.gen.go:707-727 `FetchableTopic1.Decode`, with the receiver kept -/
def FetchableTopic1.decodeK (version : Int16) : KDec FetchableTopic1 :=
    KDec.field Dec.string [] (fun t x => { t with Name := x }) ;|>
    KDec.fieldStructs (FetchPartition1.decodeK version {}) {} (fun t x => { t with FetchPartitions := x })

/-- Where the fields of `FetchableTopic1` end. -/
def FetchableTopic1.ends (version : Int16) (t : FetchableTopic1) : Nat → Nat :=
  Cut.ends 0 [Wire.string t.Name,
    Wire.array (FetchPartition1.wire version) t.FetchPartitions]

/-- What is left of `t` if only its first `n` bytes are there. -/
def FetchableTopic1.cut (version : Int16) (n : Nat) (t : FetchableTopic1) : FetchableTopic1 :=
  { Name := Cut.field n (t.ends version 0) t.Name [],
    FetchPartitions := Cut.array n (t.ends version 0) (FetchPartition1.wire version) (fun x => x.seen version {}) {} t.FetchPartitions }

/-- The same after the first `k` statements of `Decode`. -/
def FetchableTopic1.cutAt (version : Int16) (t : FetchableTopic1) (k n : Nat) : FetchableTopic1 :=
  { Name := upto k 0 (Cut.field n (t.ends version 0) t.Name []) [],
    FetchPartitions := upto k 1 (Cut.array n (t.ends version 0) (FetchPartition1.wire version) (fun x => x.seen version {}) {} t.FetchPartitions) none }

/-- The first `k` fields of `y`, and zeros. -/
def FetchableTopic1.first (k : Nat) (y : FetchableTopic1) : FetchableTopic1 :=
  { Name := upto k 0 y.Name [],
    FetchPartitions := upto k 1 y.FetchPartitions none }

/-- `r` is a beginning of `y`, and zeros. -/
def FetchableTopic1.Part (r y : FetchableTopic1) : Prop :=
  (∃ k, k < 2 ∧ r = y.first k) ∨
    Cut.begun {} (fun t => t.FetchPartitions) (fun t x => { t with FetchPartitions := x }) (FetchableTopic1.first 1) r y

/-- `FetchableTopic1` with its receiver kept. -/
def FetchableTopic1.keeps : KeptMsg FetchableTopic1.type := { decode := FetchableTopic1.decodeK, cut := FetchableTopic1.cut, Part := FetchableTopic1.Part }

theorem FetchableTopic1.sameK (version : Int16) : KStep (FetchableTopic1.decodeK version) (FetchableTopic1.decode version) :=
  (KStep.field)
    |>.andThen (KStep.structs (fun _ => rfl) (FetchPartition1.sameK version {}))
theorem FetchableTopic1.cutsK (version : Int16) (t : FetchableTopic1) (h : t.Fits version) :
    Cuts (FetchableTopic1.decodeK version) 0 (FetchableTopic1.wire version t) (FetchableTopic1.ends version t 1) (FetchableTopic1.cutAt version t 0) (FetchableTopic1.cutAt version t 2) :=
  (.field (reads_string h.Name) (fun _ => rfl) (fun _ => rfl) : Cuts _ 0 _ (FetchableTopic1.ends version t 0) (FetchableTopic1.cutAt version t 0) (FetchableTopic1.cutAt version t 1))
    |>.andThen (.structs (FetchPartition1.sameK version {}) (fun x hx => FetchPartition1.reads version x hx {}) h.FetchPartitions (fun _ => rfl) (fun _ => rfl) : Cuts _ (FetchableTopic1.ends version t 0) _ (FetchableTopic1.ends version t 1) (FetchableTopic1.cutAt version t 1) (FetchableTopic1.cutAt version t 2))
theorem FetchableTopic1.partsK (version : Int16) : Parts (FetchableTopic1.decodeK version) (FetchableTopic1.first 0) (FetchableTopic1.first 2) (fun r y => ((r = FetchableTopic1.first 0 y) ∨ (r = FetchableTopic1.first 1 y ∨ Cut.begun {} (fun t => t.FetchPartitions) (fun t x => { t with FetchPartitions := x }) (FetchableTopic1.first 1) r y))) :=
  (.field Longer.string (fun _ => rfl) (fun _ _ => rfl) (fun _ _ => rfl) (fun _ => rfl) : Parts (KDec.field Dec.string [] (fun t x => { t with Name := x })) (FetchableTopic1.first 0) (FetchableTopic1.first 1) (fun r y => r = FetchableTopic1.first 0 y))
    |>.andThen (.structs (get := fun (t : FetchableTopic1) => t.FetchPartitions) ((FetchPartition1.partsK version).longer {}) (fun _ => rfl) (fun _ => rfl) (fun _ _ => rfl) (fun _ _ => rfl) (fun _ _ => rfl) (fun _ => rfl) (fun _ => rfl) : Parts (KDec.fieldStructs (FetchPartition1.decodeK version {}) {} (fun t x => { t with FetchPartitions := x })) (FetchableTopic1.first 1) (FetchableTopic1.first 2) (fun r y => r = FetchableTopic1.first 1 y ∨ Cut.begun {} (fun t => t.FetchPartitions) (fun t x => { t with FetchPartitions := x }) (FetchableTopic1.first 1) r y))
theorem FetchableTopic1.filled (version : Int16) : FilledStep 6 60129542176 (FetchableTopic1.decode version) :=
  ((FilledStep.field .string)
    |>.andThen (FilledStep.structs (FetchPartition1.filled version {}))).mono (by decide) (by decide)
theorem FetchableTopic1.part_of (r y : FetchableTopic1) (h : ((r = FetchableTopic1.first 0 y) ∨ (r = FetchableTopic1.first 1 y ∨ Cut.begun {} (fun t => t.FetchPartitions) (fun t x => { t with FetchPartitions := x }) (FetchableTopic1.first 1) r y))) : FetchableTopic1.Part r y :=
  match h with
    | (.inl h) => .inl ⟨0, by decide, h⟩
    | (.inr (.inl h)) => .inl ⟨1, by decide, h⟩
    | (.inr (.inr h)) => (.inr h)
theorem FetchableTopic1.keeps_holds : FetchableTopic1.keeps.Holds FetchableTopic1.layout :=
  KeptMsg.holds FetchableTopic1.lawful FetchableTopic1.sameK (stop := fun v t => FetchableTopic1.ends v t 1) (c := fun v t => FetchableTopic1.cutAt v t 0) (fun _ _ _ => rfl) FetchableTopic1.cutsK (c0 := FetchableTopic1.first 0) rfl FetchableTopic1.partsK FetchableTopic1.part_of FetchableTopic1.filled (by decide) (by decide)

/-- message/messages.gen.go:823-838 `ForgottenTopic1.Decode`, with the receiver kept -/
def ForgottenTopic1.decodeK (version : Int16) : KDec ForgottenTopic1 :=
    KDec.onlyIf (version ≥ 7) (KDec.field Dec.string [] (fun t x => { t with Name := x })) ;|>
    KDec.onlyIf (version ≥ 7) (KDec.field Dec.int32Array none (fun t x => { t with ForgottenPartitionIndexes := x }))

/-- Where the fields of `ForgottenTopic1` end. -/
def ForgottenTopic1.ends (version : Int16) (t : ForgottenTopic1) : Nat → Nat :=
  Cut.ends 0 [Wire.when (version ≥ 7) (Wire.string t.Name),
    Wire.when (version ≥ 7) (Wire.int32Array t.ForgottenPartitionIndexes)]

/-- What is left of `t` if only its first `n` bytes are there. -/
def ForgottenTopic1.cut (version : Int16) (n : Nat) (t : ForgottenTopic1) : ForgottenTopic1 :=
  { Name := Cut.gate (version ≥ 7) (Cut.field n (t.ends version 0) t.Name []) [],
    ForgottenPartitionIndexes := Cut.gate (version ≥ 7) (Cut.field n (t.ends version 1) t.ForgottenPartitionIndexes none) none }

/-- The same after the first `k` statements of `Decode`. -/
def ForgottenTopic1.cutAt (version : Int16) (t : ForgottenTopic1) (k n : Nat) : ForgottenTopic1 :=
  { Name := upto k 0 (Cut.gate (version ≥ 7) (Cut.field n (t.ends version 0) t.Name []) []) [],
    ForgottenPartitionIndexes := upto k 1 (Cut.gate (version ≥ 7) (Cut.field n (t.ends version 1) t.ForgottenPartitionIndexes none) none) none }

/-- The first `k` fields of `y`, and zeros. -/
def ForgottenTopic1.first (k : Nat) (y : ForgottenTopic1) : ForgottenTopic1 :=
  { Name := upto k 0 y.Name [],
    ForgottenPartitionIndexes := upto k 1 y.ForgottenPartitionIndexes none }

/-- `r` is a beginning of `y`, and zeros. -/
def ForgottenTopic1.Part (r y : ForgottenTopic1) : Prop :=
  (∃ k, k < 2 ∧ r = y.first k)

/-- `ForgottenTopic1` with its receiver kept. -/
def ForgottenTopic1.keeps : KeptMsg ForgottenTopic1.type := { decode := ForgottenTopic1.decodeK, cut := ForgottenTopic1.cut, Part := ForgottenTopic1.Part }

theorem ForgottenTopic1.sameK (version : Int16) : KStep (ForgottenTopic1.decodeK version) (ForgottenTopic1.decode version) :=
  (KStep.onlyIf (KStep.field))
    |>.andThen (KStep.onlyIf (KStep.field))
theorem ForgottenTopic1.cutsK (version : Int16) (t : ForgottenTopic1) (h : t.Fits version) :
    Cuts (ForgottenTopic1.decodeK version) 0 (ForgottenTopic1.wire version t) (ForgottenTopic1.ends version t 1) (ForgottenTopic1.cutAt version t 0) (ForgottenTopic1.cutAt version t 2) :=
  (.optField (fun hc => reads_string (h.Name hc)) (fun _ => rfl) (fun _ => rfl) : Cuts _ 0 _ (ForgottenTopic1.ends version t 0) (ForgottenTopic1.cutAt version t 0) (ForgottenTopic1.cutAt version t 1))
    |>.andThen (.optField (fun hc => reads_int32Array (h.ForgottenPartitionIndexes hc)) (fun _ => rfl) (fun _ => rfl) : Cuts _ (ForgottenTopic1.ends version t 0) _ (ForgottenTopic1.ends version t 1) (ForgottenTopic1.cutAt version t 1) (ForgottenTopic1.cutAt version t 2))
theorem ForgottenTopic1.partsK (version : Int16) : Parts (ForgottenTopic1.decodeK version) (ForgottenTopic1.first 0) (ForgottenTopic1.first 2) (fun r y => ((r = ForgottenTopic1.first 0 y) ∨ (r = ForgottenTopic1.first 1 y))) :=
  (.onlyIf (.field Longer.string (fun _ => rfl) (fun _ _ => rfl) (fun _ _ => rfl) (fun _ => rfl)) (fun _ => rfl) : Parts (KDec.onlyIf (version ≥ 7) (KDec.field Dec.string [] (fun t x => { t with Name := x }))) (ForgottenTopic1.first 0) (ForgottenTopic1.first 1) (fun r y => r = ForgottenTopic1.first 0 y))
    |>.andThen (.onlyIf (.field Longer.int32Array (fun _ => rfl) (fun _ _ => rfl) (fun _ _ => rfl) (fun _ => rfl)) (fun _ => rfl) : Parts (KDec.onlyIf (version ≥ 7) (KDec.field Dec.int32Array none (fun t x => { t with ForgottenPartitionIndexes := x }))) (ForgottenTopic1.first 1) (ForgottenTopic1.first 2) (fun r y => r = ForgottenTopic1.first 1 y))
theorem ForgottenTopic1.filled (version : Int16) : FilledStep 6 8589934600 (ForgottenTopic1.decode version) :=
  ((FilledStep.onlyIf (FilledStep.field .string))
    |>.andThen (FilledStep.onlyIf (FilledStep.field .int32Array))).mono (by decide) (by decide)
theorem ForgottenTopic1.part_of (r y : ForgottenTopic1) (h : ((r = ForgottenTopic1.first 0 y) ∨ (r = ForgottenTopic1.first 1 y))) : ForgottenTopic1.Part r y :=
  match h with
    | (.inl h) => ⟨0, by decide, h⟩
    | (.inr h) => ⟨1, by decide, h⟩
theorem ForgottenTopic1.keeps_holds : ForgottenTopic1.keeps.Holds ForgottenTopic1.layout :=
  KeptMsg.holds ForgottenTopic1.lawful ForgottenTopic1.sameK (stop := fun v t => ForgottenTopic1.ends v t 1) (c := fun v t => ForgottenTopic1.cutAt v t 0) (fun _ _ _ => rfl) ForgottenTopic1.cutsK (c0 := ForgottenTopic1.first 0) rfl ForgottenTopic1.partsK ForgottenTopic1.part_of ForgottenTopic1.filled (by decide) (by decide)

/-- message/messages.gen.go:604-677 `FetchRequest.Decode`, with the receiver kept -/
def FetchRequest.decodeK (version : Int16) : KDec FetchRequest :=
    KDec.field Dec.int32 0 (fun t x => { t with ReplicaId := x }) ;|>
    KDec.field Dec.int32 0 (fun t x => { t with MaxWait := x }) ;|>
    KDec.field Dec.int32 0 (fun t x => { t with MinBytes := x }) ;|>
    KDec.onlyIf (version ≥ 3) (KDec.field Dec.int32 0 (fun t x => { t with MaxBytes := x })) ;|>
    KDec.onlyIf (version ≥ 4) (KDec.field Dec.int8 0 (fun t x => { t with IsolationLevel := x })) ;|>
    KDec.onlyIf (version ≥ 7) (KDec.field Dec.int32 0 (fun t x => { t with SessionId := x })) ;|>
    KDec.onlyIf (version ≥ 7) (KDec.field Dec.int32 0 (fun t x => { t with Epoch := x })) ;|>
    KDec.fieldStructs (FetchableTopic1.decodeK version {}) {} (fun t x => { t with Topics := x }) ;|>
    KDec.onlyIf (version ≥ 7) (KDec.fieldStructs (ForgottenTopic1.decodeK version {}) {} (fun t x => { t with Forgotten := x })) ;|>
    KDec.onlyIf (version ≥ 11) (KDec.field Dec.string [] (fun t x => { t with RackId := x }))

/-- Where the fields of `FetchRequest` end. -/
def FetchRequest.ends (version : Int16) (t : FetchRequest) : Nat → Nat :=
  Cut.ends 0 [Wire.int32 t.ReplicaId,
    Wire.int32 t.MaxWait,
    Wire.int32 t.MinBytes,
    Wire.when (version ≥ 3) (Wire.int32 t.MaxBytes),
    Wire.when (version ≥ 4) (Wire.int8 t.IsolationLevel),
    Wire.when (version ≥ 7) (Wire.int32 t.SessionId),
    Wire.when (version ≥ 7) (Wire.int32 t.Epoch),
    Wire.array (FetchableTopic1.wire version) t.Topics,
    Wire.when (version ≥ 7) (Wire.array (ForgottenTopic1.wire version) t.Forgotten),
    Wire.when (version ≥ 11) (Wire.string t.RackId)]

/-- What is left of `t` if only its first `n` bytes are there. -/
def FetchRequest.cut (version : Int16) (n : Nat) (t : FetchRequest) : FetchRequest :=
  { ReplicaId := Cut.field n (t.ends version 0) t.ReplicaId 0,
    MaxWait := Cut.field n (t.ends version 1) t.MaxWait 0,
    MinBytes := Cut.field n (t.ends version 2) t.MinBytes 0,
    MaxBytes := Cut.gate (version ≥ 3) (Cut.field n (t.ends version 3) t.MaxBytes 0) 0,
    IsolationLevel := Cut.gate (version ≥ 4) (Cut.field n (t.ends version 4) t.IsolationLevel 0) 0,
    SessionId := Cut.gate (version ≥ 7) (Cut.field n (t.ends version 5) t.SessionId 0) 0,
    Epoch := Cut.gate (version ≥ 7) (Cut.field n (t.ends version 6) t.Epoch 0) 0,
    Topics := Cut.array n (t.ends version 6) (FetchableTopic1.wire version) (fun x => x.seen version {}) {} t.Topics,
    Forgotten := Cut.gate (version ≥ 7) (Cut.array n (t.ends version 7) (ForgottenTopic1.wire version) (fun x => x.seen version {}) {} t.Forgotten) none,
    RackId := Cut.gate (version ≥ 11) (Cut.field n (t.ends version 9) t.RackId []) [] }

/-- The same after the first `k` statements of `Decode`. -/
def FetchRequest.cutAt (version : Int16) (t : FetchRequest) (k n : Nat) : FetchRequest :=
  { ReplicaId := upto k 0 (Cut.field n (t.ends version 0) t.ReplicaId 0) 0,
    MaxWait := upto k 1 (Cut.field n (t.ends version 1) t.MaxWait 0) 0,
    MinBytes := upto k 2 (Cut.field n (t.ends version 2) t.MinBytes 0) 0,
    MaxBytes := upto k 3 (Cut.gate (version ≥ 3) (Cut.field n (t.ends version 3) t.MaxBytes 0) 0) 0,
    IsolationLevel := upto k 4 (Cut.gate (version ≥ 4) (Cut.field n (t.ends version 4) t.IsolationLevel 0) 0) 0,
    SessionId := upto k 5 (Cut.gate (version ≥ 7) (Cut.field n (t.ends version 5) t.SessionId 0) 0) 0,
    Epoch := upto k 6 (Cut.gate (version ≥ 7) (Cut.field n (t.ends version 6) t.Epoch 0) 0) 0,
    Topics := upto k 7 (Cut.array n (t.ends version 6) (FetchableTopic1.wire version) (fun x => x.seen version {}) {} t.Topics) none,
    Forgotten := upto k 8 (Cut.gate (version ≥ 7) (Cut.array n (t.ends version 7) (ForgottenTopic1.wire version) (fun x => x.seen version {}) {} t.Forgotten) none) none,
    RackId := upto k 9 (Cut.gate (version ≥ 11) (Cut.field n (t.ends version 9) t.RackId []) []) [] }

/-- The first `k` fields of `y`, and zeros. -/
def FetchRequest.first (k : Nat) (y : FetchRequest) : FetchRequest :=
  { ReplicaId := upto k 0 y.ReplicaId 0,
    MaxWait := upto k 1 y.MaxWait 0,
    MinBytes := upto k 2 y.MinBytes 0,
    MaxBytes := upto k 3 y.MaxBytes 0,
    IsolationLevel := upto k 4 y.IsolationLevel 0,
    SessionId := upto k 5 y.SessionId 0,
    Epoch := upto k 6 y.Epoch 0,
    Topics := upto k 7 y.Topics none,
    Forgotten := upto k 8 y.Forgotten none,
    RackId := upto k 9 y.RackId [] }

/-- `r` is a beginning of `y`, and zeros. -/
def FetchRequest.Part (r y : FetchRequest) : Prop :=
  (∃ k, k < 10 ∧ r = y.first k) ∨
    Cut.begun {} (fun t => t.Topics) (fun t x => { t with Topics := x }) (FetchRequest.first 7) r y ∨
    Cut.begun {} (fun t => t.Forgotten) (fun t x => { t with Forgotten := x }) (FetchRequest.first 8) r y

/-- `FetchRequest` with its receiver kept. -/
def FetchRequest.keeps : KeptMsg FetchRequest.type := { decode := FetchRequest.decodeK, cut := FetchRequest.cut, Part := FetchRequest.Part }

theorem FetchRequest.sameK (version : Int16) : KStep (FetchRequest.decodeK version) (FetchRequest.decode version) :=
  (KStep.field)
    |>.andThen (KStep.field)
    |>.andThen (KStep.field)
    |>.andThen (KStep.onlyIf (KStep.field))
    |>.andThen (KStep.onlyIf (KStep.field))
    |>.andThen (KStep.onlyIf (KStep.field))
    |>.andThen (KStep.onlyIf (KStep.field))
    |>.andThen (KStep.structs (fun _ => rfl) (FetchableTopic1.sameK version {}))
    |>.andThen (KStep.onlyIf (KStep.structs (fun _ => rfl) (ForgottenTopic1.sameK version {})))
    |>.andThen (KStep.onlyIf (KStep.field))
theorem FetchRequest.cutsK (version : Int16) (t : FetchRequest) (h : t.Fits version) :
    Cuts (FetchRequest.decodeK version) 0 (FetchRequest.wire version t) (FetchRequest.ends version t 9) (FetchRequest.cutAt version t 0) (FetchRequest.cutAt version t 10) :=
  (.field (reads_int32 t.ReplicaId) (fun _ => rfl) (fun _ => rfl) : Cuts _ 0 _ (FetchRequest.ends version t 0) (FetchRequest.cutAt version t 0) (FetchRequest.cutAt version t 1))
    |>.andThen (.field (reads_int32 t.MaxWait) (fun _ => rfl) (fun _ => rfl) : Cuts _ (FetchRequest.ends version t 0) _ (FetchRequest.ends version t 1) (FetchRequest.cutAt version t 1) (FetchRequest.cutAt version t 2))
    |>.andThen (.field (reads_int32 t.MinBytes) (fun _ => rfl) (fun _ => rfl) : Cuts _ (FetchRequest.ends version t 1) _ (FetchRequest.ends version t 2) (FetchRequest.cutAt version t 2) (FetchRequest.cutAt version t 3))
    |>.andThen (.optField (fun _ => reads_int32 t.MaxBytes) (fun _ => rfl) (fun _ => rfl) : Cuts _ (FetchRequest.ends version t 2) _ (FetchRequest.ends version t 3) (FetchRequest.cutAt version t 3) (FetchRequest.cutAt version t 4))
    |>.andThen (.optField (fun _ => reads_int8 t.IsolationLevel) (fun _ => rfl) (fun _ => rfl) : Cuts _ (FetchRequest.ends version t 3) _ (FetchRequest.ends version t 4) (FetchRequest.cutAt version t 4) (FetchRequest.cutAt version t 5))
    |>.andThen (.optField (fun _ => reads_int32 t.SessionId) (fun _ => rfl) (fun _ => rfl) : Cuts _ (FetchRequest.ends version t 4) _ (FetchRequest.ends version t 5) (FetchRequest.cutAt version t 5) (FetchRequest.cutAt version t 6))
    |>.andThen (.optField (fun _ => reads_int32 t.Epoch) (fun _ => rfl) (fun _ => rfl) : Cuts _ (FetchRequest.ends version t 5) _ (FetchRequest.ends version t 6) (FetchRequest.cutAt version t 6) (FetchRequest.cutAt version t 7))
    |>.andThen (.structs (FetchableTopic1.sameK version {}) (fun x hx => FetchableTopic1.reads version x hx {}) h.Topics (fun _ => rfl) (fun _ => rfl) : Cuts _ (FetchRequest.ends version t 6) _ (FetchRequest.ends version t 7) (FetchRequest.cutAt version t 7) (FetchRequest.cutAt version t 8))
    |>.andThen (.optStructs (ForgottenTopic1.sameK version {}) (fun x hx => ForgottenTopic1.reads version x hx {}) h.Forgotten (fun _ => rfl) (fun _ => rfl) : Cuts _ (FetchRequest.ends version t 7) _ (FetchRequest.ends version t 8) (FetchRequest.cutAt version t 8) (FetchRequest.cutAt version t 9))
    |>.andThen (.optField (fun hc => reads_string (h.RackId hc)) (fun _ => rfl) (fun _ => rfl) : Cuts _ (FetchRequest.ends version t 8) _ (FetchRequest.ends version t 9) (FetchRequest.cutAt version t 9) (FetchRequest.cutAt version t 10))
theorem FetchRequest.partsK (version : Int16) : Parts (FetchRequest.decodeK version) (FetchRequest.first 0) (FetchRequest.first 10) (fun r y => ((((((((((r = FetchRequest.first 0 y) ∨ (r = FetchRequest.first 1 y)) ∨ (r = FetchRequest.first 2 y)) ∨ (r = FetchRequest.first 3 y)) ∨ (r = FetchRequest.first 4 y)) ∨ (r = FetchRequest.first 5 y)) ∨ (r = FetchRequest.first 6 y)) ∨ (r = FetchRequest.first 7 y ∨ Cut.begun {} (fun t => t.Topics) (fun t x => { t with Topics := x }) (FetchRequest.first 7) r y)) ∨ (r = FetchRequest.first 8 y ∨ Cut.begun {} (fun t => t.Forgotten) (fun t x => { t with Forgotten := x }) (FetchRequest.first 8) r y)) ∨ (r = FetchRequest.first 9 y))) :=
  (.field Longer.int32 (fun _ => rfl) (fun _ _ => rfl) (fun _ _ => rfl) (fun _ => rfl) : Parts (KDec.field Dec.int32 0 (fun t x => { t with ReplicaId := x })) (FetchRequest.first 0) (FetchRequest.first 1) (fun r y => r = FetchRequest.first 0 y))
    |>.andThen (.field Longer.int32 (fun _ => rfl) (fun _ _ => rfl) (fun _ _ => rfl) (fun _ => rfl) : Parts (KDec.field Dec.int32 0 (fun t x => { t with MaxWait := x })) (FetchRequest.first 1) (FetchRequest.first 2) (fun r y => r = FetchRequest.first 1 y))
    |>.andThen (.field Longer.int32 (fun _ => rfl) (fun _ _ => rfl) (fun _ _ => rfl) (fun _ => rfl) : Parts (KDec.field Dec.int32 0 (fun t x => { t with MinBytes := x })) (FetchRequest.first 2) (FetchRequest.first 3) (fun r y => r = FetchRequest.first 2 y))
    |>.andThen (.onlyIf (.field Longer.int32 (fun _ => rfl) (fun _ _ => rfl) (fun _ _ => rfl) (fun _ => rfl)) (fun _ => rfl) : Parts (KDec.onlyIf (version ≥ 3) (KDec.field Dec.int32 0 (fun t x => { t with MaxBytes := x }))) (FetchRequest.first 3) (FetchRequest.first 4) (fun r y => r = FetchRequest.first 3 y))
    |>.andThen (.onlyIf (.field Longer.int8 (fun _ => rfl) (fun _ _ => rfl) (fun _ _ => rfl) (fun _ => rfl)) (fun _ => rfl) : Parts (KDec.onlyIf (version ≥ 4) (KDec.field Dec.int8 0 (fun t x => { t with IsolationLevel := x }))) (FetchRequest.first 4) (FetchRequest.first 5) (fun r y => r = FetchRequest.first 4 y))
    |>.andThen (.onlyIf (.field Longer.int32 (fun _ => rfl) (fun _ _ => rfl) (fun _ _ => rfl) (fun _ => rfl)) (fun _ => rfl) : Parts (KDec.onlyIf (version ≥ 7) (KDec.field Dec.int32 0 (fun t x => { t with SessionId := x }))) (FetchRequest.first 5) (FetchRequest.first 6) (fun r y => r = FetchRequest.first 5 y))
    |>.andThen (.onlyIf (.field Longer.int32 (fun _ => rfl) (fun _ _ => rfl) (fun _ _ => rfl) (fun _ => rfl)) (fun _ => rfl) : Parts (KDec.onlyIf (version ≥ 7) (KDec.field Dec.int32 0 (fun t x => { t with Epoch := x }))) (FetchRequest.first 6) (FetchRequest.first 7) (fun r y => r = FetchRequest.first 6 y))
    |>.andThen (.structs (get := fun (t : FetchRequest) => t.Topics) ((FetchableTopic1.partsK version).longer {}) (fun _ => rfl) (fun _ => rfl) (fun _ _ => rfl) (fun _ _ => rfl) (fun _ _ => rfl) (fun _ => rfl) (fun _ => rfl) : Parts (KDec.fieldStructs (FetchableTopic1.decodeK version {}) {} (fun t x => { t with Topics := x })) (FetchRequest.first 7) (FetchRequest.first 8) (fun r y => r = FetchRequest.first 7 y ∨ Cut.begun {} (fun t => t.Topics) (fun t x => { t with Topics := x }) (FetchRequest.first 7) r y))
    |>.andThen (.onlyIf (.structs (get := fun (t : FetchRequest) => t.Forgotten) ((ForgottenTopic1.partsK version).longer {}) (fun _ => rfl) (fun _ => rfl) (fun _ _ => rfl) (fun _ _ => rfl) (fun _ _ => rfl) (fun _ => rfl) (fun _ => rfl)) (fun _ => rfl) : Parts (KDec.onlyIf (version ≥ 7) (KDec.fieldStructs (ForgottenTopic1.decodeK version {}) {} (fun t x => { t with Forgotten := x }))) (FetchRequest.first 8) (FetchRequest.first 9) (fun r y => r = FetchRequest.first 8 y ∨ Cut.begun {} (fun t => t.Forgotten) (fun t x => { t with Forgotten := x }) (FetchRequest.first 8) r y))
    |>.andThen (.onlyIf (.field Longer.string (fun _ => rfl) (fun _ _ => rfl) (fun _ _ => rfl) (fun _ => rfl)) (fun _ => rfl) : Parts (KDec.onlyIf (version ≥ 11) (KDec.field Dec.string [] (fun t x => { t with RackId := x }))) (FetchRequest.first 9) (FetchRequest.first 10) (fun r y => r = FetchRequest.first 9 y))
theorem FetchRequest.filled (version : Int16) : FilledStep 35 73014444074 (FetchRequest.decode version) :=
  ((FilledStep.field .int32)
    |>.andThen (FilledStep.field .int32)
    |>.andThen (FilledStep.field .int32)
    |>.andThen (FilledStep.onlyIf (FilledStep.field .int32))
    |>.andThen (FilledStep.onlyIf (FilledStep.field .int8))
    |>.andThen (FilledStep.onlyIf (FilledStep.field .int32))
    |>.andThen (FilledStep.onlyIf (FilledStep.field .int32))
    |>.andThen (FilledStep.structs (FetchableTopic1.filled version {}))
    |>.andThen (FilledStep.onlyIf (FilledStep.structs (ForgottenTopic1.filled version {})))
    |>.andThen (FilledStep.onlyIf (FilledStep.field .string))).mono (by decide) (by decide)
theorem FetchRequest.part_of (r y : FetchRequest) (h : ((((((((((r = FetchRequest.first 0 y) ∨ (r = FetchRequest.first 1 y)) ∨ (r = FetchRequest.first 2 y)) ∨ (r = FetchRequest.first 3 y)) ∨ (r = FetchRequest.first 4 y)) ∨ (r = FetchRequest.first 5 y)) ∨ (r = FetchRequest.first 6 y)) ∨ (r = FetchRequest.first 7 y ∨ Cut.begun {} (fun t => t.Topics) (fun t x => { t with Topics := x }) (FetchRequest.first 7) r y)) ∨ (r = FetchRequest.first 8 y ∨ Cut.begun {} (fun t => t.Forgotten) (fun t x => { t with Forgotten := x }) (FetchRequest.first 8) r y)) ∨ (r = FetchRequest.first 9 y))) : FetchRequest.Part r y :=
  match h with
    | (.inl (.inl (.inl (.inl (.inl (.inl (.inl (.inl (.inl h))))))))) => .inl ⟨0, by decide, h⟩
    | (.inl (.inl (.inl (.inl (.inl (.inl (.inl (.inl (.inr h))))))))) => .inl ⟨1, by decide, h⟩
    | (.inl (.inl (.inl (.inl (.inl (.inl (.inl (.inr h)))))))) => .inl ⟨2, by decide, h⟩
    | (.inl (.inl (.inl (.inl (.inl (.inl (.inr h))))))) => .inl ⟨3, by decide, h⟩
    | (.inl (.inl (.inl (.inl (.inl (.inr h)))))) => .inl ⟨4, by decide, h⟩
    | (.inl (.inl (.inl (.inl (.inr h))))) => .inl ⟨5, by decide, h⟩
    | (.inl (.inl (.inl (.inr h)))) => .inl ⟨6, by decide, h⟩
    | (.inl (.inl (.inr (.inl h)))) => .inl ⟨7, by decide, h⟩
    | (.inl (.inl (.inr (.inr h)))) => (.inr (.inl h))
    | (.inl (.inr (.inl h))) => .inl ⟨8, by decide, h⟩
    | (.inl (.inr (.inr h))) => (.inr (.inr h))
    | (.inr h) => .inl ⟨9, by decide, h⟩
theorem FetchRequest.keeps_holds : FetchRequest.keeps.Holds FetchRequest.layout :=
  KeptMsg.holds FetchRequest.lawful FetchRequest.sameK (stop := fun v t => FetchRequest.ends v t 9) (c := fun v t => FetchRequest.cutAt v t 0) (fun _ _ _ => rfl) FetchRequest.cutsK (c0 := FetchRequest.first 0) rfl FetchRequest.partsK FetchRequest.part_of FetchRequest.filled (by decide) (by decide)

/-- message/messages.gen.go:1117-1132 `AbortedTransaction1.Decode`, with the receiver kept -/
def AbortedTransaction1.decodeK (version : Int16) : KDec AbortedTransaction1 :=
    KDec.onlyIf (version ≥ 4) (KDec.field Dec.int64 0 (fun t x => { t with ProducerId := x })) ;|>
    KDec.onlyIf (version ≥ 4) (KDec.field Dec.int64 0 (fun t x => { t with FirstOffset := x }))

/-- Where the fields of `AbortedTransaction1` end. -/
def AbortedTransaction1.ends (version : Int16) (t : AbortedTransaction1) : Nat → Nat :=
  Cut.ends 0 [Wire.when (version ≥ 4) (Wire.int64 t.ProducerId),
    Wire.when (version ≥ 4) (Wire.int64 t.FirstOffset)]

/-- What is left of `t` if only its first `n` bytes are there. -/
def AbortedTransaction1.cut (version : Int16) (n : Nat) (t : AbortedTransaction1) : AbortedTransaction1 :=
  { ProducerId := Cut.gate (version ≥ 4) (Cut.field n (t.ends version 0) t.ProducerId 0) 0,
    FirstOffset := Cut.gate (version ≥ 4) (Cut.field n (t.ends version 1) t.FirstOffset 0) 0 }

/-- The same after the first `k` statements of `Decode`. -/
def AbortedTransaction1.cutAt (version : Int16) (t : AbortedTransaction1) (k n : Nat) : AbortedTransaction1 :=
  { ProducerId := upto k 0 (Cut.gate (version ≥ 4) (Cut.field n (t.ends version 0) t.ProducerId 0) 0) 0,
    FirstOffset := upto k 1 (Cut.gate (version ≥ 4) (Cut.field n (t.ends version 1) t.FirstOffset 0) 0) 0 }

/-- The first `k` fields of `y`, and zeros. -/
def AbortedTransaction1.first (k : Nat) (y : AbortedTransaction1) : AbortedTransaction1 :=
  { ProducerId := upto k 0 y.ProducerId 0,
    FirstOffset := upto k 1 y.FirstOffset 0 }

/-- `r` is a beginning of `y`, and zeros. -/
def AbortedTransaction1.Part (r y : AbortedTransaction1) : Prop :=
  (∃ k, k < 2 ∧ r = y.first k)

/-- `AbortedTransaction1` with its receiver kept. -/
def AbortedTransaction1.keeps : KeptMsg AbortedTransaction1.type := { decode := AbortedTransaction1.decodeK, cut := AbortedTransaction1.cut, Part := AbortedTransaction1.Part }

theorem AbortedTransaction1.sameK (version : Int16) : KStep (AbortedTransaction1.decodeK version) (AbortedTransaction1.decode version) :=
  (KStep.onlyIf (KStep.field))
    |>.andThen (KStep.onlyIf (KStep.field))
theorem AbortedTransaction1.cutsK (version : Int16) (t : AbortedTransaction1) (h : t.Fits version) :
    Cuts (AbortedTransaction1.decodeK version) 0 (AbortedTransaction1.wire version t) (AbortedTransaction1.ends version t 1) (AbortedTransaction1.cutAt version t 0) (AbortedTransaction1.cutAt version t 2) :=
  (.optField (fun _ => reads_int64 t.ProducerId) (fun _ => rfl) (fun _ => rfl) : Cuts _ 0 _ (AbortedTransaction1.ends version t 0) (AbortedTransaction1.cutAt version t 0) (AbortedTransaction1.cutAt version t 1))
    |>.andThen (.optField (fun _ => reads_int64 t.FirstOffset) (fun _ => rfl) (fun _ => rfl) : Cuts _ (AbortedTransaction1.ends version t 0) _ (AbortedTransaction1.ends version t 1) (AbortedTransaction1.cutAt version t 1) (AbortedTransaction1.cutAt version t 2))
theorem AbortedTransaction1.partsK (version : Int16) : Parts (AbortedTransaction1.decodeK version) (AbortedTransaction1.first 0) (AbortedTransaction1.first 2) (fun r y => ((r = AbortedTransaction1.first 0 y) ∨ (r = AbortedTransaction1.first 1 y))) :=
  (.onlyIf (.field Longer.int64 (fun _ => rfl) (fun _ _ => rfl) (fun _ _ => rfl) (fun _ => rfl)) (fun _ => rfl) : Parts (KDec.onlyIf (version ≥ 4) (KDec.field Dec.int64 0 (fun t x => { t with ProducerId := x }))) (AbortedTransaction1.first 0) (AbortedTransaction1.first 1) (fun r y => r = AbortedTransaction1.first 0 y))
    |>.andThen (.onlyIf (.field Longer.int64 (fun _ => rfl) (fun _ _ => rfl) (fun _ _ => rfl) (fun _ => rfl)) (fun _ => rfl) : Parts (KDec.onlyIf (version ≥ 4) (KDec.field Dec.int64 0 (fun t x => { t with FirstOffset := x }))) (AbortedTransaction1.first 1) (AbortedTransaction1.first 2) (fun r y => r = AbortedTransaction1.first 1 y))
theorem AbortedTransaction1.filled (version : Int16) : FilledStep 16 16 (AbortedTransaction1.decode version) :=
  ((FilledStep.onlyIf (FilledStep.field .int64))
    |>.andThen (FilledStep.onlyIf (FilledStep.field .int64))).mono (by decide) (by decide)
theorem AbortedTransaction1.part_of (r y : AbortedTransaction1) (h : ((r = AbortedTransaction1.first 0 y) ∨ (r = AbortedTransaction1.first 1 y))) : AbortedTransaction1.Part r y :=
  match h with
    | (.inl h) => ⟨0, by decide, h⟩
    | (.inr h) => ⟨1, by decide, h⟩
theorem AbortedTransaction1.keeps_holds : AbortedTransaction1.keeps.Holds AbortedTransaction1.layout :=
  KeptMsg.holds AbortedTransaction1.lawful AbortedTransaction1.sameK (stop := fun v t => AbortedTransaction1.ends v t 1) (c := fun v t => AbortedTransaction1.cutAt v t 0) (fun _ _ _ => rfl) AbortedTransaction1.cutsK (c0 := AbortedTransaction1.first 0) rfl AbortedTransaction1.partsK AbortedTransaction1.part_of AbortedTransaction1.filled (by decide) (by decide)

/-- message/messages.gen.go:1035-1087 `FetchablePartitionResponse1.Decode`, with the receiver kept -/
def FetchablePartitionResponse1.decodeK (version : Int16) : KDec FetchablePartitionResponse1 :=
    KDec.field Dec.int32 0 (fun t x => { t with PartitionIndex := x }) ;|>
    KDec.field Dec.int16 0 (fun t x => { t with ErrorCode := x }) ;|>
    KDec.field Dec.int64 0 (fun t x => { t with HighWatermark := x }) ;|>
    KDec.onlyIf (version ≥ 4) (KDec.field Dec.int64 0 (fun t x => { t with LastStableOffset := x })) ;|>
    KDec.onlyIf (version ≥ 5) (KDec.field Dec.int64 0 (fun t x => { t with LogStartOffset := x })) ;|>
    KDec.onlyIf (version ≥ 4) (KDec.fieldStructs (AbortedTransaction1.decodeK version {}) {} (fun t x => { t with Aborted := x })) ;|>
    KDec.onlyIf (version ≥ 11) (KDec.field Dec.int32 0 (fun t x => { t with PreferredReadReplica := x })) ;|>
    KDec.field Dec.bytes none (fun t x => { t with Records := x })

/-- Where the fields of `FetchablePartitionResponse1` end. -/
def FetchablePartitionResponse1.ends (version : Int16) (t : FetchablePartitionResponse1) : Nat → Nat :=
  Cut.ends 0 [Wire.int32 t.PartitionIndex,
    Wire.int16 t.ErrorCode,
    Wire.int64 t.HighWatermark,
    Wire.when (version ≥ 4) (Wire.int64 t.LastStableOffset),
    Wire.when (version ≥ 5) (Wire.int64 t.LogStartOffset),
    Wire.when (version ≥ 4) (Wire.array (AbortedTransaction1.wire version) t.Aborted),
    Wire.when (version ≥ 11) (Wire.int32 t.PreferredReadReplica),
    Wire.bytes t.Records]

/-- What is left of `t` if only its first `n` bytes are there. -/
def FetchablePartitionResponse1.cut (version : Int16) (n : Nat) (t : FetchablePartitionResponse1) : FetchablePartitionResponse1 :=
  { PartitionIndex := Cut.field n (t.ends version 0) t.PartitionIndex 0,
    ErrorCode := Cut.field n (t.ends version 1) t.ErrorCode 0,
    HighWatermark := Cut.field n (t.ends version 2) t.HighWatermark 0,
    LastStableOffset := Cut.gate (version ≥ 4) (Cut.field n (t.ends version 3) t.LastStableOffset 0) 0,
    LogStartOffset := Cut.gate (version ≥ 5) (Cut.field n (t.ends version 4) t.LogStartOffset 0) 0,
    Aborted := Cut.gate (version ≥ 4) (Cut.array n (t.ends version 4) (AbortedTransaction1.wire version) (fun x => x.seen version {}) {} t.Aborted) none,
    PreferredReadReplica := Cut.gate (version ≥ 11) (Cut.field n (t.ends version 6) t.PreferredReadReplica 0) 0,
    Records := Cut.field n (t.ends version 7) t.Records.nonNil none }

/-- The same after the first `k` statements of `Decode`. -/
def FetchablePartitionResponse1.cutAt (version : Int16) (t : FetchablePartitionResponse1) (k n : Nat) : FetchablePartitionResponse1 :=
  { PartitionIndex := upto k 0 (Cut.field n (t.ends version 0) t.PartitionIndex 0) 0,
    ErrorCode := upto k 1 (Cut.field n (t.ends version 1) t.ErrorCode 0) 0,
    HighWatermark := upto k 2 (Cut.field n (t.ends version 2) t.HighWatermark 0) 0,
    LastStableOffset := upto k 3 (Cut.gate (version ≥ 4) (Cut.field n (t.ends version 3) t.LastStableOffset 0) 0) 0,
    LogStartOffset := upto k 4 (Cut.gate (version ≥ 5) (Cut.field n (t.ends version 4) t.LogStartOffset 0) 0) 0,
    Aborted := upto k 5 (Cut.gate (version ≥ 4) (Cut.array n (t.ends version 4) (AbortedTransaction1.wire version) (fun x => x.seen version {}) {} t.Aborted) none) none,
    PreferredReadReplica := upto k 6 (Cut.gate (version ≥ 11) (Cut.field n (t.ends version 6) t.PreferredReadReplica 0) 0) 0,
    Records := upto k 7 (Cut.field n (t.ends version 7) t.Records.nonNil none) none }

/-- The first `k` fields of `y`, and zeros. -/
def FetchablePartitionResponse1.first (k : Nat) (y : FetchablePartitionResponse1) : FetchablePartitionResponse1 :=
  { PartitionIndex := upto k 0 y.PartitionIndex 0,
    ErrorCode := upto k 1 y.ErrorCode 0,
    HighWatermark := upto k 2 y.HighWatermark 0,
    LastStableOffset := upto k 3 y.LastStableOffset 0,
    LogStartOffset := upto k 4 y.LogStartOffset 0,
    Aborted := upto k 5 y.Aborted none,
    PreferredReadReplica := upto k 6 y.PreferredReadReplica 0,
    Records := upto k 7 y.Records none }

/-- `r` is a beginning of `y`, and zeros. -/
def FetchablePartitionResponse1.Part (r y : FetchablePartitionResponse1) : Prop :=
  (∃ k, k < 8 ∧ r = y.first k) ∨
    Cut.begun {} (fun t => t.Aborted) (fun t x => { t with Aborted := x }) (FetchablePartitionResponse1.first 5) r y

/-- `FetchablePartitionResponse1` with its receiver kept. -/
def FetchablePartitionResponse1.keeps : KeptMsg FetchablePartitionResponse1.type := { decode := FetchablePartitionResponse1.decodeK, cut := FetchablePartitionResponse1.cut, Part := FetchablePartitionResponse1.Part }

theorem FetchablePartitionResponse1.sameK (version : Int16) : KStep (FetchablePartitionResponse1.decodeK version) (FetchablePartitionResponse1.decode version) :=
  (KStep.field)
    |>.andThen (KStep.field)
    |>.andThen (KStep.field)
    |>.andThen (KStep.onlyIf (KStep.field))
    |>.andThen (KStep.onlyIf (KStep.field))
    |>.andThen (KStep.onlyIf (KStep.structs (fun _ => rfl) (AbortedTransaction1.sameK version {})))
    |>.andThen (KStep.onlyIf (KStep.field))
    |>.andThen (KStep.field)
theorem FetchablePartitionResponse1.cutsK (version : Int16) (t : FetchablePartitionResponse1) (h : t.Fits version) :
    Cuts (FetchablePartitionResponse1.decodeK version) 0 (FetchablePartitionResponse1.wire version t) (FetchablePartitionResponse1.ends version t 7) (FetchablePartitionResponse1.cutAt version t 0) (FetchablePartitionResponse1.cutAt version t 8) :=
  (.field (reads_int32 t.PartitionIndex) (fun _ => rfl) (fun _ => rfl) : Cuts _ 0 _ (FetchablePartitionResponse1.ends version t 0) (FetchablePartitionResponse1.cutAt version t 0) (FetchablePartitionResponse1.cutAt version t 1))
    |>.andThen (.field (reads_int16 t.ErrorCode) (fun _ => rfl) (fun _ => rfl) : Cuts _ (FetchablePartitionResponse1.ends version t 0) _ (FetchablePartitionResponse1.ends version t 1) (FetchablePartitionResponse1.cutAt version t 1) (FetchablePartitionResponse1.cutAt version t 2))
    |>.andThen (.field (reads_int64 t.HighWatermark) (fun _ => rfl) (fun _ => rfl) : Cuts _ (FetchablePartitionResponse1.ends version t 1) _ (FetchablePartitionResponse1.ends version t 2) (FetchablePartitionResponse1.cutAt version t 2) (FetchablePartitionResponse1.cutAt version t 3))
    |>.andThen (.optField (fun _ => reads_int64 t.LastStableOffset) (fun _ => rfl) (fun _ => rfl) : Cuts _ (FetchablePartitionResponse1.ends version t 2) _ (FetchablePartitionResponse1.ends version t 3) (FetchablePartitionResponse1.cutAt version t 3) (FetchablePartitionResponse1.cutAt version t 4))
    |>.andThen (.optField (fun _ => reads_int64 t.LogStartOffset) (fun _ => rfl) (fun _ => rfl) : Cuts _ (FetchablePartitionResponse1.ends version t 3) _ (FetchablePartitionResponse1.ends version t 4) (FetchablePartitionResponse1.cutAt version t 4) (FetchablePartitionResponse1.cutAt version t 5))
    |>.andThen (.optStructs (AbortedTransaction1.sameK version {}) (fun x hx => AbortedTransaction1.reads version x hx {}) h.Aborted (fun _ => rfl) (fun _ => rfl) : Cuts _ (FetchablePartitionResponse1.ends version t 4) _ (FetchablePartitionResponse1.ends version t 5) (FetchablePartitionResponse1.cutAt version t 5) (FetchablePartitionResponse1.cutAt version t 6))
    |>.andThen (.optField (fun _ => reads_int32 t.PreferredReadReplica) (fun _ => rfl) (fun _ => rfl) : Cuts _ (FetchablePartitionResponse1.ends version t 5) _ (FetchablePartitionResponse1.ends version t 6) (FetchablePartitionResponse1.cutAt version t 6) (FetchablePartitionResponse1.cutAt version t 7))
    |>.andThen (.field (reads_bytes h.Records) (fun _ => rfl) (fun _ => rfl) : Cuts _ (FetchablePartitionResponse1.ends version t 6) _ (FetchablePartitionResponse1.ends version t 7) (FetchablePartitionResponse1.cutAt version t 7) (FetchablePartitionResponse1.cutAt version t 8))
theorem FetchablePartitionResponse1.partsK (version : Int16) : Parts (FetchablePartitionResponse1.decodeK version) (FetchablePartitionResponse1.first 0) (FetchablePartitionResponse1.first 8) (fun r y => ((((((((r = FetchablePartitionResponse1.first 0 y) ∨ (r = FetchablePartitionResponse1.first 1 y)) ∨ (r = FetchablePartitionResponse1.first 2 y)) ∨ (r = FetchablePartitionResponse1.first 3 y)) ∨ (r = FetchablePartitionResponse1.first 4 y)) ∨ (r = FetchablePartitionResponse1.first 5 y ∨ Cut.begun {} (fun t => t.Aborted) (fun t x => { t with Aborted := x }) (FetchablePartitionResponse1.first 5) r y)) ∨ (r = FetchablePartitionResponse1.first 6 y)) ∨ (r = FetchablePartitionResponse1.first 7 y))) :=
  (.field Longer.int32 (fun _ => rfl) (fun _ _ => rfl) (fun _ _ => rfl) (fun _ => rfl) : Parts (KDec.field Dec.int32 0 (fun t x => { t with PartitionIndex := x })) (FetchablePartitionResponse1.first 0) (FetchablePartitionResponse1.first 1) (fun r y => r = FetchablePartitionResponse1.first 0 y))
    |>.andThen (.field Longer.int16 (fun _ => rfl) (fun _ _ => rfl) (fun _ _ => rfl) (fun _ => rfl) : Parts (KDec.field Dec.int16 0 (fun t x => { t with ErrorCode := x })) (FetchablePartitionResponse1.first 1) (FetchablePartitionResponse1.first 2) (fun r y => r = FetchablePartitionResponse1.first 1 y))
    |>.andThen (.field Longer.int64 (fun _ => rfl) (fun _ _ => rfl) (fun _ _ => rfl) (fun _ => rfl) : Parts (KDec.field Dec.int64 0 (fun t x => { t with HighWatermark := x })) (FetchablePartitionResponse1.first 2) (FetchablePartitionResponse1.first 3) (fun r y => r = FetchablePartitionResponse1.first 2 y))
    |>.andThen (.onlyIf (.field Longer.int64 (fun _ => rfl) (fun _ _ => rfl) (fun _ _ => rfl) (fun _ => rfl)) (fun _ => rfl) : Parts (KDec.onlyIf (version ≥ 4) (KDec.field Dec.int64 0 (fun t x => { t with LastStableOffset := x }))) (FetchablePartitionResponse1.first 3) (FetchablePartitionResponse1.first 4) (fun r y => r = FetchablePartitionResponse1.first 3 y))
    |>.andThen (.onlyIf (.field Longer.int64 (fun _ => rfl) (fun _ _ => rfl) (fun _ _ => rfl) (fun _ => rfl)) (fun _ => rfl) : Parts (KDec.onlyIf (version ≥ 5) (KDec.field Dec.int64 0 (fun t x => { t with LogStartOffset := x }))) (FetchablePartitionResponse1.first 4) (FetchablePartitionResponse1.first 5) (fun r y => r = FetchablePartitionResponse1.first 4 y))
    |>.andThen (.onlyIf (.structs (get := fun (t : FetchablePartitionResponse1) => t.Aborted) ((AbortedTransaction1.partsK version).longer {}) (fun _ => rfl) (fun _ => rfl) (fun _ _ => rfl) (fun _ _ => rfl) (fun _ _ => rfl) (fun _ => rfl) (fun _ => rfl)) (fun _ => rfl) : Parts (KDec.onlyIf (version ≥ 4) (KDec.fieldStructs (AbortedTransaction1.decodeK version {}) {} (fun t x => { t with Aborted := x }))) (FetchablePartitionResponse1.first 5) (FetchablePartitionResponse1.first 6) (fun r y => r = FetchablePartitionResponse1.first 5 y ∨ Cut.begun {} (fun t => t.Aborted) (fun t x => { t with Aborted := x }) (FetchablePartitionResponse1.first 5) r y))
    |>.andThen (.onlyIf (.field Longer.int32 (fun _ => rfl) (fun _ _ => rfl) (fun _ _ => rfl) (fun _ => rfl)) (fun _ => rfl) : Parts (KDec.onlyIf (version ≥ 11) (KDec.field Dec.int32 0 (fun t x => { t with PreferredReadReplica := x }))) (FetchablePartitionResponse1.first 6) (FetchablePartitionResponse1.first 7) (fun r y => r = FetchablePartitionResponse1.first 6 y))
    |>.andThen (.field Longer.bytes (fun _ => rfl) (fun _ _ => rfl) (fun _ _ => rfl) (fun _ => rfl) : Parts (KDec.field Dec.bytes none (fun t x => { t with Records := x })) (FetchablePartitionResponse1.first 7) (FetchablePartitionResponse1.first 8) (fun r y => r = FetchablePartitionResponse1.first 7 y))
theorem FetchablePartitionResponse1.filled (version : Int16) : FilledStep 42 34359738396 (FetchablePartitionResponse1.decode version) :=
  ((FilledStep.field .int32)
    |>.andThen (FilledStep.field .int16)
    |>.andThen (FilledStep.field .int64)
    |>.andThen (FilledStep.onlyIf (FilledStep.field .int64))
    |>.andThen (FilledStep.onlyIf (FilledStep.field .int64))
    |>.andThen (FilledStep.onlyIf (FilledStep.structs (AbortedTransaction1.filled version {})))
    |>.andThen (FilledStep.onlyIf (FilledStep.field .int32))
    |>.andThen (FilledStep.field .bytes)).mono (by decide) (by decide)
theorem FetchablePartitionResponse1.part_of (r y : FetchablePartitionResponse1) (h : ((((((((r = FetchablePartitionResponse1.first 0 y) ∨ (r = FetchablePartitionResponse1.first 1 y)) ∨ (r = FetchablePartitionResponse1.first 2 y)) ∨ (r = FetchablePartitionResponse1.first 3 y)) ∨ (r = FetchablePartitionResponse1.first 4 y)) ∨ (r = FetchablePartitionResponse1.first 5 y ∨ Cut.begun {} (fun t => t.Aborted) (fun t x => { t with Aborted := x }) (FetchablePartitionResponse1.first 5) r y)) ∨ (r = FetchablePartitionResponse1.first 6 y)) ∨ (r = FetchablePartitionResponse1.first 7 y))) : FetchablePartitionResponse1.Part r y :=
  match h with
    | (.inl (.inl (.inl (.inl (.inl (.inl (.inl h))))))) => .inl ⟨0, by decide, h⟩
    | (.inl (.inl (.inl (.inl (.inl (.inl (.inr h))))))) => .inl ⟨1, by decide, h⟩
    | (.inl (.inl (.inl (.inl (.inl (.inr h)))))) => .inl ⟨2, by decide, h⟩
    | (.inl (.inl (.inl (.inl (.inr h))))) => .inl ⟨3, by decide, h⟩
    | (.inl (.inl (.inl (.inr h)))) => .inl ⟨4, by decide, h⟩
    | (.inl (.inl (.inr (.inl h)))) => .inl ⟨5, by decide, h⟩
    | (.inl (.inl (.inr (.inr h)))) => (.inr h)
    | (.inl (.inr h)) => .inl ⟨6, by decide, h⟩
    | (.inr h) => .inl ⟨7, by decide, h⟩
theorem FetchablePartitionResponse1.keeps_holds : FetchablePartitionResponse1.keeps.Holds FetchablePartitionResponse1.layout :=
  KeptMsg.holds FetchablePartitionResponse1.lawful FetchablePartitionResponse1.sameK (stop := fun v t => FetchablePartitionResponse1.ends v t 7) (c := fun v t => FetchablePartitionResponse1.cutAt v t 0) (fun _ _ _ => rfl) FetchablePartitionResponse1.cutsK (c0 := FetchablePartitionResponse1.first 0) rfl FetchablePartitionResponse1.partsK FetchablePartitionResponse1.part_of FetchablePartitionResponse1.filled (by decide) (by decide)

/-- message/messages.gen.go:951-971 `FetchableTopicResponse1.Decode`, with the receiver kept -/
def FetchableTopicResponse1.decodeK (version : Int16) : KDec FetchableTopicResponse1 :=
    KDec.field Dec.string [] (fun t x => { t with Name := x }) ;|>
    KDec.fieldStructs (FetchablePartitionResponse1.decodeK version {}) {} (fun t x => { t with Partitions := x })

/-- Where the fields of `FetchableTopicResponse1` end. -/
def FetchableTopicResponse1.ends (version : Int16) (t : FetchableTopicResponse1) : Nat → Nat :=
  Cut.ends 0 [Wire.string t.Name,
    Wire.array (FetchablePartitionResponse1.wire version) t.Partitions]

/-- What is left of `t` if only its first `n` bytes are there. -/
def FetchableTopicResponse1.cut (version : Int16) (n : Nat) (t : FetchableTopicResponse1) : FetchableTopicResponse1 :=
  { Name := Cut.field n (t.ends version 0) t.Name [],
    Partitions := Cut.array n (t.ends version 0) (FetchablePartitionResponse1.wire version) (fun x => x.seen version {}) {} t.Partitions }

/-- The same after the first `k` statements of `Decode`. -/
def FetchableTopicResponse1.cutAt (version : Int16) (t : FetchableTopicResponse1) (k n : Nat) : FetchableTopicResponse1 :=
  { Name := upto k 0 (Cut.field n (t.ends version 0) t.Name []) [],
    Partitions := upto k 1 (Cut.array n (t.ends version 0) (FetchablePartitionResponse1.wire version) (fun x => x.seen version {}) {} t.Partitions) none }

/-- The first `k` fields of `y`, and zeros. -/
def FetchableTopicResponse1.first (k : Nat) (y : FetchableTopicResponse1) : FetchableTopicResponse1 :=
  { Name := upto k 0 y.Name [],
    Partitions := upto k 1 y.Partitions none }

/-- `r` is a beginning of `y`, and zeros. -/
def FetchableTopicResponse1.Part (r y : FetchableTopicResponse1) : Prop :=
  (∃ k, k < 2 ∧ r = y.first k) ∨
    Cut.begun {} (fun t => t.Partitions) (fun t x => { t with Partitions := x }) (FetchableTopicResponse1.first 1) r y

/-- `FetchableTopicResponse1` with its receiver kept. -/
def FetchableTopicResponse1.keeps : KeptMsg FetchableTopicResponse1.type := { decode := FetchableTopicResponse1.decodeK, cut := FetchableTopicResponse1.cut, Part := FetchableTopicResponse1.Part }

theorem FetchableTopicResponse1.sameK (version : Int16) : KStep (FetchableTopicResponse1.decodeK version) (FetchableTopicResponse1.decode version) :=
  (KStep.field)
    |>.andThen (KStep.structs (fun _ => rfl) (FetchablePartitionResponse1.sameK version {}))
theorem FetchableTopicResponse1.cutsK (version : Int16) (t : FetchableTopicResponse1) (h : t.Fits version) :
    Cuts (FetchableTopicResponse1.decodeK version) 0 (FetchableTopicResponse1.wire version t) (FetchableTopicResponse1.ends version t 1) (FetchableTopicResponse1.cutAt version t 0) (FetchableTopicResponse1.cutAt version t 2) :=
  (.field (reads_string h.Name) (fun _ => rfl) (fun _ => rfl) : Cuts _ 0 _ (FetchableTopicResponse1.ends version t 0) (FetchableTopicResponse1.cutAt version t 0) (FetchableTopicResponse1.cutAt version t 1))
    |>.andThen (.structs (FetchablePartitionResponse1.sameK version {}) (fun x hx => FetchablePartitionResponse1.reads version x hx {}) h.Partitions (fun _ => rfl) (fun _ => rfl) : Cuts _ (FetchableTopicResponse1.ends version t 0) _ (FetchableTopicResponse1.ends version t 1) (FetchableTopicResponse1.cutAt version t 1) (FetchableTopicResponse1.cutAt version t 2))
theorem FetchableTopicResponse1.partsK (version : Int16) : Parts (FetchableTopicResponse1.decodeK version) (FetchableTopicResponse1.first 0) (FetchableTopicResponse1.first 2) (fun r y => ((r = FetchableTopicResponse1.first 0 y) ∨ (r = FetchableTopicResponse1.first 1 y ∨ Cut.begun {} (fun t => t.Partitions) (fun t x => { t with Partitions := x }) (FetchableTopicResponse1.first 1) r y))) :=
  (.field Longer.string (fun _ => rfl) (fun _ _ => rfl) (fun _ _ => rfl) (fun _ => rfl) : Parts (KDec.field Dec.string [] (fun t x => { t with Name := x })) (FetchableTopicResponse1.first 0) (FetchableTopicResponse1.first 1) (fun r y => r = FetchableTopicResponse1.first 0 y))
    |>.andThen (.structs (get := fun (t : FetchableTopicResponse1) => t.Partitions) ((FetchablePartitionResponse1.partsK version).longer {}) (fun _ => rfl) (fun _ => rfl) (fun _ _ => rfl) (fun _ _ => rfl) (fun _ _ => rfl) (fun _ => rfl) (fun _ => rfl) : Parts (KDec.fieldStructs (FetchablePartitionResponse1.decodeK version {}) {} (fun t x => { t with Partitions := x })) (FetchableTopicResponse1.first 1) (FetchableTopicResponse1.first 2) (fun r y => r = FetchableTopicResponse1.first 1 y ∨ Cut.begun {} (fun t => t.Partitions) (fun t x => { t with Partitions := x }) (FetchableTopicResponse1.first 1) r y))
theorem FetchableTopicResponse1.filled (version : Int16) : FilledStep 6 124554051616 (FetchableTopicResponse1.decode version) :=
  ((FilledStep.field .string)
    |>.andThen (FilledStep.structs (FetchablePartitionResponse1.filled version {}))).mono (by decide) (by decide)
theorem FetchableTopicResponse1.part_of (r y : FetchableTopicResponse1) (h : ((r = FetchableTopicResponse1.first 0 y) ∨ (r = FetchableTopicResponse1.first 1 y ∨ Cut.begun {} (fun t => t.Partitions) (fun t x => { t with Partitions := x }) (FetchableTopicResponse1.first 1) r y))) : FetchableTopicResponse1.Part r y :=
  match h with
    | (.inl h) => .inl ⟨0, by decide, h⟩
    | (.inr (.inl h)) => .inl ⟨1, by decide, h⟩
    | (.inr (.inr h)) => (.inr h)
theorem FetchableTopicResponse1.keeps_holds : FetchableTopicResponse1.keeps.Holds FetchableTopicResponse1.layout :=
  KeptMsg.holds FetchableTopicResponse1.lawful FetchableTopicResponse1.sameK (stop := fun v t => FetchableTopicResponse1.ends v t 1) (c := fun v t => FetchableTopicResponse1.cutAt v t 0) (fun _ _ _ => rfl) FetchableTopicResponse1.cutsK (c0 := FetchableTopicResponse1.first 0) rfl FetchableTopicResponse1.partsK FetchableTopicResponse1.part_of FetchableTopicResponse1.filled (by decide) (by decide)

/-- message/messages.gen.go:887-921 `FetchResponse.Decode`, with the receiver kept -/
def FetchResponse.decodeK (version : Int16) : KDec FetchResponse :=
    KDec.onlyIf (version ≥ 1) (KDec.field Dec.int32 0 (fun t x => { t with ThrottleTimeMs := x })) ;|>
    KDec.onlyIf (version ≥ 7) (KDec.field Dec.int16 0 (fun t x => { t with ErrorCode := x })) ;|>
    KDec.onlyIf (version ≥ 7) (KDec.field Dec.int32 0 (fun t x => { t with SessionId := x })) ;|>
    KDec.fieldStructs (FetchableTopicResponse1.decodeK version {}) {} (fun t x => { t with Topics := x })

/-- Where the fields of `FetchResponse` end. -/
def FetchResponse.ends (version : Int16) (t : FetchResponse) : Nat → Nat :=
  Cut.ends 0 [Wire.when (version ≥ 1) (Wire.int32 t.ThrottleTimeMs),
    Wire.when (version ≥ 7) (Wire.int16 t.ErrorCode),
    Wire.when (version ≥ 7) (Wire.int32 t.SessionId),
    Wire.array (FetchableTopicResponse1.wire version) t.Topics]

/-- What is left of `t` if only its first `n` bytes are there. -/
def FetchResponse.cut (version : Int16) (n : Nat) (t : FetchResponse) : FetchResponse :=
  { ThrottleTimeMs := Cut.gate (version ≥ 1) (Cut.field n (t.ends version 0) t.ThrottleTimeMs 0) 0,
    ErrorCode := Cut.gate (version ≥ 7) (Cut.field n (t.ends version 1) t.ErrorCode 0) 0,
    SessionId := Cut.gate (version ≥ 7) (Cut.field n (t.ends version 2) t.SessionId 0) 0,
    Topics := Cut.array n (t.ends version 2) (FetchableTopicResponse1.wire version) (fun x => x.seen version {}) {} t.Topics }

/-- The same after the first `k` statements of `Decode`. -/
def FetchResponse.cutAt (version : Int16) (t : FetchResponse) (k n : Nat) : FetchResponse :=
  { ThrottleTimeMs := upto k 0 (Cut.gate (version ≥ 1) (Cut.field n (t.ends version 0) t.ThrottleTimeMs 0) 0) 0,
    ErrorCode := upto k 1 (Cut.gate (version ≥ 7) (Cut.field n (t.ends version 1) t.ErrorCode 0) 0) 0,
    SessionId := upto k 2 (Cut.gate (version ≥ 7) (Cut.field n (t.ends version 2) t.SessionId 0) 0) 0,
    Topics := upto k 3 (Cut.array n (t.ends version 2) (FetchableTopicResponse1.wire version) (fun x => x.seen version {}) {} t.Topics) none }

/-- The first `k` fields of `y`, and zeros. -/
def FetchResponse.first (k : Nat) (y : FetchResponse) : FetchResponse :=
  { ThrottleTimeMs := upto k 0 y.ThrottleTimeMs 0,
    ErrorCode := upto k 1 y.ErrorCode 0,
    SessionId := upto k 2 y.SessionId 0,
    Topics := upto k 3 y.Topics none }

/-- `r` is a beginning of `y`, and zeros. -/
def FetchResponse.Part (r y : FetchResponse) : Prop :=
  (∃ k, k < 4 ∧ r = y.first k) ∨
    Cut.begun {} (fun t => t.Topics) (fun t x => { t with Topics := x }) (FetchResponse.first 3) r y

/-- `FetchResponse` with its receiver kept. -/
def FetchResponse.keeps : KeptMsg FetchResponse.type := { decode := FetchResponse.decodeK, cut := FetchResponse.cut, Part := FetchResponse.Part }

theorem FetchResponse.sameK (version : Int16) : KStep (FetchResponse.decodeK version) (FetchResponse.decode version) :=
  (KStep.onlyIf (KStep.field))
    |>.andThen (KStep.onlyIf (KStep.field))
    |>.andThen (KStep.onlyIf (KStep.field))
    |>.andThen (KStep.structs (fun _ => rfl) (FetchableTopicResponse1.sameK version {}))
theorem FetchResponse.cutsK (version : Int16) (t : FetchResponse) (h : t.Fits version) :
    Cuts (FetchResponse.decodeK version) 0 (FetchResponse.wire version t) (FetchResponse.ends version t 3) (FetchResponse.cutAt version t 0) (FetchResponse.cutAt version t 4) :=
  (.optField (fun _ => reads_int32 t.ThrottleTimeMs) (fun _ => rfl) (fun _ => rfl) : Cuts _ 0 _ (FetchResponse.ends version t 0) (FetchResponse.cutAt version t 0) (FetchResponse.cutAt version t 1))
    |>.andThen (.optField (fun _ => reads_int16 t.ErrorCode) (fun _ => rfl) (fun _ => rfl) : Cuts _ (FetchResponse.ends version t 0) _ (FetchResponse.ends version t 1) (FetchResponse.cutAt version t 1) (FetchResponse.cutAt version t 2))
    |>.andThen (.optField (fun _ => reads_int32 t.SessionId) (fun _ => rfl) (fun _ => rfl) : Cuts _ (FetchResponse.ends version t 1) _ (FetchResponse.ends version t 2) (FetchResponse.cutAt version t 2) (FetchResponse.cutAt version t 3))
    |>.andThen (.structs (FetchableTopicResponse1.sameK version {}) (fun x hx => FetchableTopicResponse1.reads version x hx {}) h.Topics (fun _ => rfl) (fun _ => rfl) : Cuts _ (FetchResponse.ends version t 2) _ (FetchResponse.ends version t 3) (FetchResponse.cutAt version t 3) (FetchResponse.cutAt version t 4))
theorem FetchResponse.partsK (version : Int16) : Parts (FetchResponse.decodeK version) (FetchResponse.first 0) (FetchResponse.first 4) (fun r y => ((((r = FetchResponse.first 0 y) ∨ (r = FetchResponse.first 1 y)) ∨ (r = FetchResponse.first 2 y)) ∨ (r = FetchResponse.first 3 y ∨ Cut.begun {} (fun t => t.Topics) (fun t x => { t with Topics := x }) (FetchResponse.first 3) r y))) :=
  (.onlyIf (.field Longer.int32 (fun _ => rfl) (fun _ _ => rfl) (fun _ _ => rfl) (fun _ => rfl)) (fun _ => rfl) : Parts (KDec.onlyIf (version ≥ 1) (KDec.field Dec.int32 0 (fun t x => { t with ThrottleTimeMs := x }))) (FetchResponse.first 0) (FetchResponse.first 1) (fun r y => r = FetchResponse.first 0 y))
    |>.andThen (.onlyIf (.field Longer.int16 (fun _ => rfl) (fun _ _ => rfl) (fun _ _ => rfl) (fun _ => rfl)) (fun _ => rfl) : Parts (KDec.onlyIf (version ≥ 7) (KDec.field Dec.int16 0 (fun t x => { t with ErrorCode := x }))) (FetchResponse.first 1) (FetchResponse.first 2) (fun r y => r = FetchResponse.first 1 y))
    |>.andThen (.onlyIf (.field Longer.int32 (fun _ => rfl) (fun _ _ => rfl) (fun _ _ => rfl) (fun _ => rfl)) (fun _ => rfl) : Parts (KDec.onlyIf (version ≥ 7) (KDec.field Dec.int32 0 (fun t x => { t with SessionId := x }))) (FetchResponse.first 2) (FetchResponse.first 3) (fun r y => r = FetchResponse.first 2 y))
    |>.andThen (.structs (get := fun (t : FetchResponse) => t.Topics) ((FetchableTopicResponse1.partsK version).longer {}) (fun _ => rfl) (fun _ => rfl) (fun _ _ => rfl) (fun _ _ => rfl) (fun _ _ => rfl) (fun _ => rfl) (fun _ => rfl) : Parts (KDec.fieldStructs (FetchableTopicResponse1.decodeK version {}) {} (fun t x => { t with Topics := x })) (FetchResponse.first 3) (FetchResponse.first 4) (fun r y => r = FetchResponse.first 3 y ∨ Cut.begun {} (fun t => t.Topics) (fun t x => { t with Topics := x }) (FetchResponse.first 3) r y))
theorem FetchResponse.filled (version : Int16) : FilledStep 14 137438953508 (FetchResponse.decode version) :=
  ((FilledStep.onlyIf (FilledStep.field .int32))
    |>.andThen (FilledStep.onlyIf (FilledStep.field .int16))
    |>.andThen (FilledStep.onlyIf (FilledStep.field .int32))
    |>.andThen (FilledStep.structs (FetchableTopicResponse1.filled version {}))).mono (by decide) (by decide)
theorem FetchResponse.part_of (r y : FetchResponse) (h : ((((r = FetchResponse.first 0 y) ∨ (r = FetchResponse.first 1 y)) ∨ (r = FetchResponse.first 2 y)) ∨ (r = FetchResponse.first 3 y ∨ Cut.begun {} (fun t => t.Topics) (fun t x => { t with Topics := x }) (FetchResponse.first 3) r y))) : FetchResponse.Part r y :=
  match h with
    | (.inl (.inl (.inl h))) => .inl ⟨0, by decide, h⟩
    | (.inl (.inl (.inr h))) => .inl ⟨1, by decide, h⟩
    | (.inl (.inr h)) => .inl ⟨2, by decide, h⟩
    | (.inr (.inl h)) => .inl ⟨3, by decide, h⟩
    | (.inr (.inr h)) => (.inr h)
theorem FetchResponse.keeps_holds : FetchResponse.keeps.Holds FetchResponse.layout :=
  KeptMsg.holds FetchResponse.lawful FetchResponse.sameK (stop := fun v t => FetchResponse.ends v t 3) (c := fun v t => FetchResponse.cutAt v t 0) (fun _ _ _ => rfl) FetchResponse.cutsK (c0 := FetchResponse.first 0) rfl FetchResponse.partsK FetchResponse.part_of FetchResponse.filled (by decide) (by decide)

/-- The structures of the Fetch messages. -/
def keptFetch : List (Σ (M : MsgType) (_ : Layout M), KeptMsg M) :=
  [⟨FetchRequest.type, FetchRequest.layout, FetchRequest.keeps⟩,
   ⟨FetchableTopic1.type, FetchableTopic1.layout, FetchableTopic1.keeps⟩,
   ⟨FetchPartition1.type, FetchPartition1.layout, FetchPartition1.keeps⟩,
   ⟨ForgottenTopic1.type, ForgottenTopic1.layout, ForgottenTopic1.keeps⟩,
   ⟨FetchResponse.type, FetchResponse.layout, FetchResponse.keeps⟩,
   ⟨FetchableTopicResponse1.type, FetchableTopicResponse1.layout, FetchableTopicResponse1.keeps⟩,
   ⟨FetchablePartitionResponse1.type, FetchablePartitionResponse1.layout, FetchablePartitionResponse1.keeps⟩,
   ⟨AbortedTransaction1.type, AbortedTransaction1.layout, AbortedTransaction1.keeps⟩]
theorem keptFetch_holds : ∀ p ∈ keptFetch, p.2.2.Holds p.2.1 := by
  unfold keptFetch
  simp only [List.forall_mem_cons]
  exact ⟨FetchRequest.keeps_holds, FetchableTopic1.keeps_holds, FetchPartition1.keeps_holds, ForgottenTopic1.keeps_holds, FetchResponse.keeps_holds, FetchableTopicResponse1.keeps_holds, FetchablePartitionResponse1.keeps_holds, AbortedTransaction1.keeps_holds, fun _ h => absurd h (by simp)⟩

end Kafka.Msg
