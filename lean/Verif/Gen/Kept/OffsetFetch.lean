import Verif.Message.KeptLemmas
import Verif.Gen.Proof.OffsetFetch
/-!
Generated by tools/gen_messages.py: what is in the OffsetFetch messages after an error.
-/
set_option linter.unusedVariables false
namespace Kafka.Msg

/-- message/messages.gen.go:3704-3715 `OffsetFetchRequestTopic9.Decode`, with the receiver kept -/
def OffsetFetchRequestTopic9.decodeK (_version : Int16) : KDec OffsetFetchRequestTopic9 :=
    KDec.field Dec.string [] (fun t x => { t with Name := x }) ;|>
    KDec.field Dec.int32Array none (fun t x => { t with PartitionIndexes := x })

/-- Where the fields of `OffsetFetchRequestTopic9` end. -/
def OffsetFetchRequestTopic9.ends (_version : Int16) (t : OffsetFetchRequestTopic9) : Nat → Nat :=
  Cut.ends 0 [Wire.string t.Name,
    Wire.int32Array t.PartitionIndexes]

/-- What is left of `t` if only its first `n` bytes are there. -/
def OffsetFetchRequestTopic9.cut (version : Int16) (n : Nat) (t : OffsetFetchRequestTopic9) : OffsetFetchRequestTopic9 :=
  { Name := Cut.field n (t.ends version 0) t.Name [],
    PartitionIndexes := Cut.field n (t.ends version 1) t.PartitionIndexes none }

/-- The same after the first `k` statements of `Decode`. -/
def OffsetFetchRequestTopic9.cutAt (version : Int16) (t : OffsetFetchRequestTopic9) (k n : Nat) : OffsetFetchRequestTopic9 :=
  { Name := upto k 0 (Cut.field n (t.ends version 0) t.Name []) [],
    PartitionIndexes := upto k 1 (Cut.field n (t.ends version 1) t.PartitionIndexes none) none }

/-- The first `k` fields of `y`, and zeros. -/
def OffsetFetchRequestTopic9.first (k : Nat) (y : OffsetFetchRequestTopic9) : OffsetFetchRequestTopic9 :=
  { Name := upto k 0 y.Name [],
    PartitionIndexes := upto k 1 y.PartitionIndexes none }

/-- `r` is a beginning of `y`, and zeros. -/
def OffsetFetchRequestTopic9.Part (r y : OffsetFetchRequestTopic9) : Prop :=
  (∃ k, k < 2 ∧ r = y.first k)

/-- `OffsetFetchRequestTopic9` with its receiver kept. -/
def OffsetFetchRequestTopic9.keeps : KeptMsg OffsetFetchRequestTopic9.type := { decode := OffsetFetchRequestTopic9.decodeK, cut := OffsetFetchRequestTopic9.cut, Part := OffsetFetchRequestTopic9.Part }

theorem OffsetFetchRequestTopic9.sameK (version : Int16) : KStep (OffsetFetchRequestTopic9.decodeK version) (OffsetFetchRequestTopic9.decode version) :=
  (KStep.field)
    |>.andThen (KStep.field)
theorem OffsetFetchRequestTopic9.cutsK (version : Int16) (t : OffsetFetchRequestTopic9) (h : t.Fits version) :
    Cuts (OffsetFetchRequestTopic9.decodeK version) 0 (OffsetFetchRequestTopic9.wire version t) (OffsetFetchRequestTopic9.ends version t 1) (OffsetFetchRequestTopic9.cutAt version t 0) (OffsetFetchRequestTopic9.cutAt version t 2) :=
  (.field (reads_string h.Name) (fun _ => rfl) (fun _ => rfl) : Cuts _ 0 _ (OffsetFetchRequestTopic9.ends version t 0) (OffsetFetchRequestTopic9.cutAt version t 0) (OffsetFetchRequestTopic9.cutAt version t 1))
    |>.andThen (.field (reads_int32Array h.PartitionIndexes) (fun _ => rfl) (fun _ => rfl) : Cuts _ (OffsetFetchRequestTopic9.ends version t 0) _ (OffsetFetchRequestTopic9.ends version t 1) (OffsetFetchRequestTopic9.cutAt version t 1) (OffsetFetchRequestTopic9.cutAt version t 2))
theorem OffsetFetchRequestTopic9.partsK (version : Int16) : Parts (OffsetFetchRequestTopic9.decodeK version) (OffsetFetchRequestTopic9.first 0) (OffsetFetchRequestTopic9.first 2) (fun r y => ((r = OffsetFetchRequestTopic9.first 0 y) ∨ (r = OffsetFetchRequestTopic9.first 1 y))) :=
  (.field Longer.string (fun _ => rfl) (fun _ _ => rfl) (fun _ _ => rfl) (fun _ => rfl) : Parts (KDec.field Dec.string [] (fun t x => { t with Name := x })) (OffsetFetchRequestTopic9.first 0) (OffsetFetchRequestTopic9.first 1) (fun r y => r = OffsetFetchRequestTopic9.first 0 y))
    |>.andThen (.field Longer.int32Array (fun _ => rfl) (fun _ _ => rfl) (fun _ _ => rfl) (fun _ => rfl) : Parts (KDec.field Dec.int32Array none (fun t x => { t with PartitionIndexes := x })) (OffsetFetchRequestTopic9.first 1) (OffsetFetchRequestTopic9.first 2) (fun r y => r = OffsetFetchRequestTopic9.first 1 y))
theorem OffsetFetchRequestTopic9.filled (version : Int16) : FilledStep 6 8589934600 (OffsetFetchRequestTopic9.decode version) :=
  ((FilledStep.field .string)
    |>.andThen (FilledStep.field .int32Array)).mono (by decide) (by decide)
theorem OffsetFetchRequestTopic9.part_of (r y : OffsetFetchRequestTopic9) (h : ((r = OffsetFetchRequestTopic9.first 0 y) ∨ (r = OffsetFetchRequestTopic9.first 1 y))) : OffsetFetchRequestTopic9.Part r y :=
  match h with
    | (.inl h) => ⟨0, by decide, h⟩
    | (.inr h) => ⟨1, by decide, h⟩
theorem OffsetFetchRequestTopic9.keeps_holds : OffsetFetchRequestTopic9.keeps.Holds OffsetFetchRequestTopic9.layout :=
  KeptMsg.holds OffsetFetchRequestTopic9.lawful OffsetFetchRequestTopic9.sameK (stop := fun v t => OffsetFetchRequestTopic9.ends v t 1) (c := fun v t => OffsetFetchRequestTopic9.cutAt v t 0) (fun _ _ _ => rfl) OffsetFetchRequestTopic9.cutsK (c0 := OffsetFetchRequestTopic9.first 0) rfl OffsetFetchRequestTopic9.partsK OffsetFetchRequestTopic9.part_of OffsetFetchRequestTopic9.filled (by decide) (by decide)

/-- message/messages.gen.go:3662-3682 `OffsetFetchRequest.Decode`, with the receiver kept -/
def OffsetFetchRequest.decodeK (version : Int16) : KDec OffsetFetchRequest :=
    KDec.field Dec.string [] (fun t x => { t with GroupId := x }) ;|>
    KDec.fieldStructs (OffsetFetchRequestTopic9.decodeK version {}) {} (fun t x => { t with Topics := x })

/-- Where the fields of `OffsetFetchRequest` end. -/
def OffsetFetchRequest.ends (version : Int16) (t : OffsetFetchRequest) : Nat → Nat :=
  Cut.ends 0 [Wire.string t.GroupId,
    Wire.array (OffsetFetchRequestTopic9.wire version) t.Topics]

/-- What is left of `t` if only its first `n` bytes are there. -/
def OffsetFetchRequest.cut (version : Int16) (n : Nat) (t : OffsetFetchRequest) : OffsetFetchRequest :=
  { GroupId := Cut.field n (t.ends version 0) t.GroupId [],
    Topics := Cut.array n (t.ends version 0) (OffsetFetchRequestTopic9.wire version) (fun x => x.seen version {}) {} t.Topics }

/-- The same after the first `k` statements of `Decode`. -/
def OffsetFetchRequest.cutAt (version : Int16) (t : OffsetFetchRequest) (k n : Nat) : OffsetFetchRequest :=
  { GroupId := upto k 0 (Cut.field n (t.ends version 0) t.GroupId []) [],
    Topics := upto k 1 (Cut.array n (t.ends version 0) (OffsetFetchRequestTopic9.wire version) (fun x => x.seen version {}) {} t.Topics) none }

/-- The first `k` fields of `y`, and zeros. -/
def OffsetFetchRequest.first (k : Nat) (y : OffsetFetchRequest) : OffsetFetchRequest :=
  { GroupId := upto k 0 y.GroupId [],
    Topics := upto k 1 y.Topics none }

/-- `r` is a beginning of `y`, and zeros. -/
def OffsetFetchRequest.Part (r y : OffsetFetchRequest) : Prop :=
  (∃ k, k < 2 ∧ r = y.first k) ∨
    Cut.begun {} (fun t => t.Topics) (fun t x => { t with Topics := x }) (OffsetFetchRequest.first 1) r y

/-- `OffsetFetchRequest` with its receiver kept. -/
def OffsetFetchRequest.keeps : KeptMsg OffsetFetchRequest.type := { decode := OffsetFetchRequest.decodeK, cut := OffsetFetchRequest.cut, Part := OffsetFetchRequest.Part }

theorem OffsetFetchRequest.sameK (version : Int16) : KStep (OffsetFetchRequest.decodeK version) (OffsetFetchRequest.decode version) :=
  (KStep.field)
    |>.andThen (KStep.structs (fun _ => rfl) (OffsetFetchRequestTopic9.sameK version {}))
theorem OffsetFetchRequest.cutsK (version : Int16) (t : OffsetFetchRequest) (h : t.Fits version) :
    Cuts (OffsetFetchRequest.decodeK version) 0 (OffsetFetchRequest.wire version t) (OffsetFetchRequest.ends version t 1) (OffsetFetchRequest.cutAt version t 0) (OffsetFetchRequest.cutAt version t 2) :=
  (.field (reads_string h.GroupId) (fun _ => rfl) (fun _ => rfl) : Cuts _ 0 _ (OffsetFetchRequest.ends version t 0) (OffsetFetchRequest.cutAt version t 0) (OffsetFetchRequest.cutAt version t 1))
    |>.andThen (.structs (OffsetFetchRequestTopic9.sameK version {}) (fun x hx => OffsetFetchRequestTopic9.reads version x hx {}) h.Topics (fun _ => rfl) (fun _ => rfl) : Cuts _ (OffsetFetchRequest.ends version t 0) _ (OffsetFetchRequest.ends version t 1) (OffsetFetchRequest.cutAt version t 1) (OffsetFetchRequest.cutAt version t 2))
theorem OffsetFetchRequest.partsK (version : Int16) : Parts (OffsetFetchRequest.decodeK version) (OffsetFetchRequest.first 0) (OffsetFetchRequest.first 2) (fun r y => ((r = OffsetFetchRequest.first 0 y) ∨ (r = OffsetFetchRequest.first 1 y ∨ Cut.begun {} (fun t => t.Topics) (fun t x => { t with Topics := x }) (OffsetFetchRequest.first 1) r y))) :=
  (.field Longer.string (fun _ => rfl) (fun _ _ => rfl) (fun _ _ => rfl) (fun _ => rfl) : Parts (KDec.field Dec.string [] (fun t x => { t with GroupId := x })) (OffsetFetchRequest.first 0) (OffsetFetchRequest.first 1) (fun r y => r = OffsetFetchRequest.first 0 y))
    |>.andThen (.structs (get := fun (t : OffsetFetchRequest) => t.Topics) ((OffsetFetchRequestTopic9.partsK version).longer {}) (fun _ => rfl) (fun _ => rfl) (fun _ _ => rfl) (fun _ _ => rfl) (fun _ _ => rfl) (fun _ => rfl) (fun _ => rfl) : Parts (KDec.fieldStructs (OffsetFetchRequestTopic9.decodeK version {}) {} (fun t x => { t with Topics := x })) (OffsetFetchRequest.first 1) (OffsetFetchRequest.first 2) (fun r y => r = OffsetFetchRequest.first 1 y ∨ Cut.begun {} (fun t => t.Topics) (fun t x => { t with Topics := x }) (OffsetFetchRequest.first 1) r y))
theorem OffsetFetchRequest.filled (version : Int16) : FilledStep 6 21474836492 (OffsetFetchRequest.decode version) :=
  ((FilledStep.field .string)
    |>.andThen (FilledStep.structs (OffsetFetchRequestTopic9.filled version {}))).mono (by decide) (by decide)
theorem OffsetFetchRequest.part_of (r y : OffsetFetchRequest) (h : ((r = OffsetFetchRequest.first 0 y) ∨ (r = OffsetFetchRequest.first 1 y ∨ Cut.begun {} (fun t => t.Topics) (fun t x => { t with Topics := x }) (OffsetFetchRequest.first 1) r y))) : OffsetFetchRequest.Part r y :=
  match h with
    | (.inl h) => .inl ⟨0, by decide, h⟩
    | (.inr (.inl h)) => .inl ⟨1, by decide, h⟩
    | (.inr (.inr h)) => (.inr h)
theorem OffsetFetchRequest.keeps_holds : OffsetFetchRequest.keeps.Holds OffsetFetchRequest.layout :=
  KeptMsg.holds OffsetFetchRequest.lawful OffsetFetchRequest.sameK (stop := fun v t => OffsetFetchRequest.ends v t 1) (c := fun v t => OffsetFetchRequest.cutAt v t 0) (fun _ _ _ => rfl) OffsetFetchRequest.cutsK (c0 := OffsetFetchRequest.first 0) rfl OffsetFetchRequest.partsK OffsetFetchRequest.part_of OffsetFetchRequest.filled (by decide) (by decide)

/-- message/messages.gen.go:3870-3895 `OffsetFetchResponsePartition9.Decode`, with the receiver kept -/
def OffsetFetchResponsePartition9.decodeK (version : Int16) : KDec OffsetFetchResponsePartition9 :=
    KDec.field Dec.int32 0 (fun t x => { t with PartitionIndex := x }) ;|>
    KDec.field Dec.int64 0 (fun t x => { t with CommittedOffset := x }) ;|>
    KDec.onlyIf (version ≥ 5) (KDec.field Dec.int32 0 (fun t x => { t with CommittedLeaderEpoch := x })) ;|>
    KDec.field Dec.string [] (fun t x => { t with Metadata := x }) ;|>
    KDec.field Dec.int16 0 (fun t x => { t with ErrorCode := x })

/-- Where the fields of `OffsetFetchResponsePartition9` end. -/
def OffsetFetchResponsePartition9.ends (version : Int16) (t : OffsetFetchResponsePartition9) : Nat → Nat :=
  Cut.ends 0 [Wire.int32 t.PartitionIndex,
    Wire.int64 t.CommittedOffset,
    Wire.when (version ≥ 5) (Wire.int32 t.CommittedLeaderEpoch),
    Wire.string t.Metadata,
    Wire.int16 t.ErrorCode]

/-- What is left of `t` if only its first `n` bytes are there. -/
def OffsetFetchResponsePartition9.cut (version : Int16) (n : Nat) (t : OffsetFetchResponsePartition9) : OffsetFetchResponsePartition9 :=
  { PartitionIndex := Cut.field n (t.ends version 0) t.PartitionIndex 0,
    CommittedOffset := Cut.field n (t.ends version 1) t.CommittedOffset 0,
    CommittedLeaderEpoch := Cut.gate (version ≥ 5) (Cut.field n (t.ends version 2) t.CommittedLeaderEpoch 0) 0,
    Metadata := Cut.field n (t.ends version 3) t.Metadata [],
    ErrorCode := Cut.field n (t.ends version 4) t.ErrorCode 0 }

/-- The same after the first `k` statements of `Decode`. -/
def OffsetFetchResponsePartition9.cutAt (version : Int16) (t : OffsetFetchResponsePartition9) (k n : Nat) : OffsetFetchResponsePartition9 :=
  { PartitionIndex := upto k 0 (Cut.field n (t.ends version 0) t.PartitionIndex 0) 0,
    CommittedOffset := upto k 1 (Cut.field n (t.ends version 1) t.CommittedOffset 0) 0,
    CommittedLeaderEpoch := upto k 2 (Cut.gate (version ≥ 5) (Cut.field n (t.ends version 2) t.CommittedLeaderEpoch 0) 0) 0,
    Metadata := upto k 3 (Cut.field n (t.ends version 3) t.Metadata []) [],
    ErrorCode := upto k 4 (Cut.field n (t.ends version 4) t.ErrorCode 0) 0 }

/-- The first `k` fields of `y`, and zeros. -/
def OffsetFetchResponsePartition9.first (k : Nat) (y : OffsetFetchResponsePartition9) : OffsetFetchResponsePartition9 :=
  { PartitionIndex := upto k 0 y.PartitionIndex 0,
    CommittedOffset := upto k 1 y.CommittedOffset 0,
    CommittedLeaderEpoch := upto k 2 y.CommittedLeaderEpoch 0,
    Metadata := upto k 3 y.Metadata [],
    ErrorCode := upto k 4 y.ErrorCode 0 }

/-- `r` is a beginning of `y`, and zeros. -/
def OffsetFetchResponsePartition9.Part (r y : OffsetFetchResponsePartition9) : Prop :=
  (∃ k, k < 5 ∧ r = y.first k)

/-- `OffsetFetchResponsePartition9` with its receiver kept. -/
def OffsetFetchResponsePartition9.keeps : KeptMsg OffsetFetchResponsePartition9.type := { decode := OffsetFetchResponsePartition9.decodeK, cut := OffsetFetchResponsePartition9.cut, Part := OffsetFetchResponsePartition9.Part }

theorem OffsetFetchResponsePartition9.sameK (version : Int16) : KStep (OffsetFetchResponsePartition9.decodeK version) (OffsetFetchResponsePartition9.decode version) :=
  (KStep.field)
    |>.andThen (KStep.field)
    |>.andThen (KStep.onlyIf (KStep.field))
    |>.andThen (KStep.field)
    |>.andThen (KStep.field)
theorem OffsetFetchResponsePartition9.cutsK (version : Int16) (t : OffsetFetchResponsePartition9) (h : t.Fits version) :
    Cuts (OffsetFetchResponsePartition9.decodeK version) 0 (OffsetFetchResponsePartition9.wire version t) (OffsetFetchResponsePartition9.ends version t 4) (OffsetFetchResponsePartition9.cutAt version t 0) (OffsetFetchResponsePartition9.cutAt version t 5) :=
  (.field (reads_int32 t.PartitionIndex) (fun _ => rfl) (fun _ => rfl) : Cuts _ 0 _ (OffsetFetchResponsePartition9.ends version t 0) (OffsetFetchResponsePartition9.cutAt version t 0) (OffsetFetchResponsePartition9.cutAt version t 1))
    |>.andThen (.field (reads_int64 t.CommittedOffset) (fun _ => rfl) (fun _ => rfl) : Cuts _ (OffsetFetchResponsePartition9.ends version t 0) _ (OffsetFetchResponsePartition9.ends version t 1) (OffsetFetchResponsePartition9.cutAt version t 1) (OffsetFetchResponsePartition9.cutAt version t 2))
    |>.andThen (.optField (fun _ => reads_int32 t.CommittedLeaderEpoch) (fun _ => rfl) (fun _ => rfl) : Cuts _ (OffsetFetchResponsePartition9.ends version t 1) _ (OffsetFetchResponsePartition9.ends version t 2) (OffsetFetchResponsePartition9.cutAt version t 2) (OffsetFetchResponsePartition9.cutAt version t 3))
    |>.andThen (.field (reads_string h.Metadata) (fun _ => rfl) (fun _ => rfl) : Cuts _ (OffsetFetchResponsePartition9.ends version t 2) _ (OffsetFetchResponsePartition9.ends version t 3) (OffsetFetchResponsePartition9.cutAt version t 3) (OffsetFetchResponsePartition9.cutAt version t 4))
    |>.andThen (.field (reads_int16 t.ErrorCode) (fun _ => rfl) (fun _ => rfl) : Cuts _ (OffsetFetchResponsePartition9.ends version t 3) _ (OffsetFetchResponsePartition9.ends version t 4) (OffsetFetchResponsePartition9.cutAt version t 4) (OffsetFetchResponsePartition9.cutAt version t 5))
theorem OffsetFetchResponsePartition9.partsK (version : Int16) : Parts (OffsetFetchResponsePartition9.decodeK version) (OffsetFetchResponsePartition9.first 0) (OffsetFetchResponsePartition9.first 5) (fun r y => (((((r = OffsetFetchResponsePartition9.first 0 y) ∨ (r = OffsetFetchResponsePartition9.first 1 y)) ∨ (r = OffsetFetchResponsePartition9.first 2 y)) ∨ (r = OffsetFetchResponsePartition9.first 3 y)) ∨ (r = OffsetFetchResponsePartition9.first 4 y))) :=
  (.field Longer.int32 (fun _ => rfl) (fun _ _ => rfl) (fun _ _ => rfl) (fun _ => rfl) : Parts (KDec.field Dec.int32 0 (fun t x => { t with PartitionIndex := x })) (OffsetFetchResponsePartition9.first 0) (OffsetFetchResponsePartition9.first 1) (fun r y => r = OffsetFetchResponsePartition9.first 0 y))
    |>.andThen (.field Longer.int64 (fun _ => rfl) (fun _ _ => rfl) (fun _ _ => rfl) (fun _ => rfl) : Parts (KDec.field Dec.int64 0 (fun t x => { t with CommittedOffset := x })) (OffsetFetchResponsePartition9.first 1) (OffsetFetchResponsePartition9.first 2) (fun r y => r = OffsetFetchResponsePartition9.first 1 y))
    |>.andThen (.onlyIf (.field Longer.int32 (fun _ => rfl) (fun _ _ => rfl) (fun _ _ => rfl) (fun _ => rfl)) (fun _ => rfl) : Parts (KDec.onlyIf (version ≥ 5) (KDec.field Dec.int32 0 (fun t x => { t with CommittedLeaderEpoch := x }))) (OffsetFetchResponsePartition9.first 2) (OffsetFetchResponsePartition9.first 3) (fun r y => r = OffsetFetchResponsePartition9.first 2 y))
    |>.andThen (.field Longer.string (fun _ => rfl) (fun _ _ => rfl) (fun _ _ => rfl) (fun _ => rfl) : Parts (KDec.field Dec.string [] (fun t x => { t with Metadata := x })) (OffsetFetchResponsePartition9.first 3) (OffsetFetchResponsePartition9.first 4) (fun r y => r = OffsetFetchResponsePartition9.first 3 y))
    |>.andThen (.field Longer.int16 (fun _ => rfl) (fun _ _ => rfl) (fun _ _ => rfl) (fun _ => rfl) : Parts (KDec.field Dec.int16 0 (fun t x => { t with ErrorCode := x })) (OffsetFetchResponsePartition9.first 4) (OffsetFetchResponsePartition9.first 5) (fun r y => r = OffsetFetchResponsePartition9.first 4 y))
theorem OffsetFetchResponsePartition9.filled (version : Int16) : FilledStep 20 32772 (OffsetFetchResponsePartition9.decode version) :=
  ((FilledStep.field .int32)
    |>.andThen (FilledStep.field .int64)
    |>.andThen (FilledStep.onlyIf (FilledStep.field .int32))
    |>.andThen (FilledStep.field .string)
    |>.andThen (FilledStep.field .int16)).mono (by decide) (by decide)
theorem OffsetFetchResponsePartition9.part_of (r y : OffsetFetchResponsePartition9) (h : (((((r = OffsetFetchResponsePartition9.first 0 y) ∨ (r = OffsetFetchResponsePartition9.first 1 y)) ∨ (r = OffsetFetchResponsePartition9.first 2 y)) ∨ (r = OffsetFetchResponsePartition9.first 3 y)) ∨ (r = OffsetFetchResponsePartition9.first 4 y))) : OffsetFetchResponsePartition9.Part r y :=
  match h with
    | (.inl (.inl (.inl (.inl h)))) => ⟨0, by decide, h⟩
    | (.inl (.inl (.inl (.inr h)))) => ⟨1, by decide, h⟩
    | (.inl (.inl (.inr h))) => ⟨2, by decide, h⟩
    | (.inl (.inr h)) => ⟨3, by decide, h⟩
    | (.inr h) => ⟨4, by decide, h⟩
theorem OffsetFetchResponsePartition9.keeps_holds : OffsetFetchResponsePartition9.keeps.Holds OffsetFetchResponsePartition9.layout :=
  KeptMsg.holds OffsetFetchResponsePartition9.lawful OffsetFetchResponsePartition9.sameK (stop := fun v t => OffsetFetchResponsePartition9.ends v t 4) (c := fun v t => OffsetFetchResponsePartition9.cutAt v t 0) (fun _ _ _ => rfl) OffsetFetchResponsePartition9.cutsK (c0 := OffsetFetchResponsePartition9.first 0) rfl OffsetFetchResponsePartition9.partsK OffsetFetchResponsePartition9.part_of OffsetFetchResponsePartition9.filled (by decide) (by decide)

/-- message/messages.gen.go:3815-3835 `OffsetFetchResponseTopic9.Decode`, with the receiver kept -/
def OffsetFetchResponseTopic9.decodeK (version : Int16) : KDec OffsetFetchResponseTopic9 :=
    KDec.field Dec.string [] (fun t x => { t with Name := x }) ;|>
    KDec.fieldStructs (OffsetFetchResponsePartition9.decodeK version {}) {} (fun t x => { t with Partitions := x })

/-- Where the fields of `OffsetFetchResponseTopic9` end. -/
def OffsetFetchResponseTopic9.ends (version : Int16) (t : OffsetFetchResponseTopic9) : Nat → Nat :=
  Cut.ends 0 [Wire.string t.Name,
    Wire.array (OffsetFetchResponsePartition9.wire version) t.Partitions]

/-- What is left of `t` if only its first `n` bytes are there. -/
def OffsetFetchResponseTopic9.cut (version : Int16) (n : Nat) (t : OffsetFetchResponseTopic9) : OffsetFetchResponseTopic9 :=
  { Name := Cut.field n (t.ends version 0) t.Name [],
    Partitions := Cut.array n (t.ends version 0) (OffsetFetchResponsePartition9.wire version) (fun x => x.seen version {}) {} t.Partitions }

/-- The same after the first `k` statements of `Decode`. -/
def OffsetFetchResponseTopic9.cutAt (version : Int16) (t : OffsetFetchResponseTopic9) (k n : Nat) : OffsetFetchResponseTopic9 :=
  { Name := upto k 0 (Cut.field n (t.ends version 0) t.Name []) [],
    Partitions := upto k 1 (Cut.array n (t.ends version 0) (OffsetFetchResponsePartition9.wire version) (fun x => x.seen version {}) {} t.Partitions) none }

/-- The first `k` fields of `y`, and zeros. -/
def OffsetFetchResponseTopic9.first (k : Nat) (y : OffsetFetchResponseTopic9) : OffsetFetchResponseTopic9 :=
  { Name := upto k 0 y.Name [],
    Partitions := upto k 1 y.Partitions none }

/-- `r` is a beginning of `y`, and zeros. -/
def OffsetFetchResponseTopic9.Part (r y : OffsetFetchResponseTopic9) : Prop :=
  (∃ k, k < 2 ∧ r = y.first k) ∨
    Cut.begun {} (fun t => t.Partitions) (fun t x => { t with Partitions := x }) (OffsetFetchResponseTopic9.first 1) r y

/-- `OffsetFetchResponseTopic9` with its receiver kept. -/
def OffsetFetchResponseTopic9.keeps : KeptMsg OffsetFetchResponseTopic9.type := { decode := OffsetFetchResponseTopic9.decodeK, cut := OffsetFetchResponseTopic9.cut, Part := OffsetFetchResponseTopic9.Part }

theorem OffsetFetchResponseTopic9.sameK (version : Int16) : KStep (OffsetFetchResponseTopic9.decodeK version) (OffsetFetchResponseTopic9.decode version) :=
  (KStep.field)
    |>.andThen (KStep.structs (fun _ => rfl) (OffsetFetchResponsePartition9.sameK version {}))
theorem OffsetFetchResponseTopic9.cutsK (version : Int16) (t : OffsetFetchResponseTopic9) (h : t.Fits version) :
    Cuts (OffsetFetchResponseTopic9.decodeK version) 0 (OffsetFetchResponseTopic9.wire version t) (OffsetFetchResponseTopic9.ends version t 1) (OffsetFetchResponseTopic9.cutAt version t 0) (OffsetFetchResponseTopic9.cutAt version t 2) :=
  (.field (reads_string h.Name) (fun _ => rfl) (fun _ => rfl) : Cuts _ 0 _ (OffsetFetchResponseTopic9.ends version t 0) (OffsetFetchResponseTopic9.cutAt version t 0) (OffsetFetchResponseTopic9.cutAt version t 1))
    |>.andThen (.structs (OffsetFetchResponsePartition9.sameK version {}) (fun x hx => OffsetFetchResponsePartition9.reads version x hx {}) h.Partitions (fun _ => rfl) (fun _ => rfl) : Cuts _ (OffsetFetchResponseTopic9.ends version t 0) _ (OffsetFetchResponseTopic9.ends version t 1) (OffsetFetchResponseTopic9.cutAt version t 1) (OffsetFetchResponseTopic9.cutAt version t 2))
theorem OffsetFetchResponseTopic9.partsK (version : Int16) : Parts (OffsetFetchResponseTopic9.decodeK version) (OffsetFetchResponseTopic9.first 0) (OffsetFetchResponseTopic9.first 2) (fun r y => ((r = OffsetFetchResponseTopic9.first 0 y) ∨ (r = OffsetFetchResponseTopic9.first 1 y ∨ Cut.begun {} (fun t => t.Partitions) (fun t x => { t with Partitions := x }) (OffsetFetchResponseTopic9.first 1) r y))) :=
  (.field Longer.string (fun _ => rfl) (fun _ _ => rfl) (fun _ _ => rfl) (fun _ => rfl) : Parts (KDec.field Dec.string [] (fun t x => { t with Name := x })) (OffsetFetchResponseTopic9.first 0) (OffsetFetchResponseTopic9.first 1) (fun r y => r = OffsetFetchResponseTopic9.first 0 y))
    |>.andThen (.structs (get := fun (t : OffsetFetchResponseTopic9) => t.Partitions) ((OffsetFetchResponsePartition9.partsK version).longer {}) (fun _ => rfl) (fun _ => rfl) (fun _ _ => rfl) (fun _ _ => rfl) (fun _ _ => rfl) (fun _ => rfl) (fun _ => rfl) : Parts (KDec.fieldStructs (OffsetFetchResponsePartition9.decodeK version {}) {} (fun t x => { t with Partitions := x })) (OffsetFetchResponseTopic9.first 1) (OffsetFetchResponseTopic9.first 2) (fun r y => r = OffsetFetchResponseTopic9.first 1 y ∨ Cut.begun {} (fun t => t.Partitions) (fun t x => { t with Partitions := x }) (OffsetFetchResponseTopic9.first 1) r y))
theorem OffsetFetchResponseTopic9.filled (version : Int16) : FilledStep 6 42949705736 (OffsetFetchResponseTopic9.decode version) :=
  ((FilledStep.field .string)
    |>.andThen (FilledStep.structs (OffsetFetchResponsePartition9.filled version {}))).mono (by decide) (by decide)
theorem OffsetFetchResponseTopic9.part_of (r y : OffsetFetchResponseTopic9) (h : ((r = OffsetFetchResponseTopic9.first 0 y) ∨ (r = OffsetFetchResponseTopic9.first 1 y ∨ Cut.begun {} (fun t => t.Partitions) (fun t x => { t with Partitions := x }) (OffsetFetchResponseTopic9.first 1) r y))) : OffsetFetchResponseTopic9.Part r y :=
  match h with
    | (.inl h) => .inl ⟨0, by decide, h⟩
    | (.inr (.inl h)) => .inl ⟨1, by decide, h⟩
    | (.inr (.inr h)) => (.inr h)
theorem OffsetFetchResponseTopic9.keeps_holds : OffsetFetchResponseTopic9.keeps.Holds OffsetFetchResponseTopic9.layout :=
  KeptMsg.holds OffsetFetchResponseTopic9.lawful OffsetFetchResponseTopic9.sameK (stop := fun v t => OffsetFetchResponseTopic9.ends v t 1) (c := fun v t => OffsetFetchResponseTopic9.cutAt v t 0) (fun _ _ _ => rfl) OffsetFetchResponseTopic9.cutsK (c0 := OffsetFetchResponseTopic9.first 0) rfl OffsetFetchResponseTopic9.partsK OffsetFetchResponseTopic9.part_of OffsetFetchResponseTopic9.filled (by decide) (by decide)

/-- message/messages.gen.go:3757-3785 `OffsetFetchResponse.Decode`, with the receiver kept -/
def OffsetFetchResponse.decodeK (version : Int16) : KDec OffsetFetchResponse :=
    KDec.onlyIf (version ≥ 3) (KDec.field Dec.int32 0 (fun t x => { t with ThrottleTimeMs := x })) ;|>
    KDec.fieldStructs (OffsetFetchResponseTopic9.decodeK version {}) {} (fun t x => { t with Topics := x }) ;|>
    KDec.onlyIf (version ≥ 2) (KDec.field Dec.int16 0 (fun t x => { t with ErrorCode := x }))

/-- Where the fields of `OffsetFetchResponse` end. -/
def OffsetFetchResponse.ends (version : Int16) (t : OffsetFetchResponse) : Nat → Nat :=
  Cut.ends 0 [Wire.when (version ≥ 3) (Wire.int32 t.ThrottleTimeMs),
    Wire.array (OffsetFetchResponseTopic9.wire version) t.Topics,
    Wire.when (version ≥ 2) (Wire.int16 t.ErrorCode)]

/-- What is left of `t` if only its first `n` bytes are there. -/
def OffsetFetchResponse.cut (version : Int16) (n : Nat) (t : OffsetFetchResponse) : OffsetFetchResponse :=
  { ThrottleTimeMs := Cut.gate (version ≥ 3) (Cut.field n (t.ends version 0) t.ThrottleTimeMs 0) 0,
    Topics := Cut.array n (t.ends version 0) (OffsetFetchResponseTopic9.wire version) (fun x => x.seen version {}) {} t.Topics,
    ErrorCode := Cut.gate (version ≥ 2) (Cut.field n (t.ends version 2) t.ErrorCode 0) 0 }

/-- The same after the first `k` statements of `Decode`. -/
def OffsetFetchResponse.cutAt (version : Int16) (t : OffsetFetchResponse) (k n : Nat) : OffsetFetchResponse :=
  { ThrottleTimeMs := upto k 0 (Cut.gate (version ≥ 3) (Cut.field n (t.ends version 0) t.ThrottleTimeMs 0) 0) 0,
    Topics := upto k 1 (Cut.array n (t.ends version 0) (OffsetFetchResponseTopic9.wire version) (fun x => x.seen version {}) {} t.Topics) none,
    ErrorCode := upto k 2 (Cut.gate (version ≥ 2) (Cut.field n (t.ends version 2) t.ErrorCode 0) 0) 0 }

/-- The first `k` fields of `y`, and zeros. -/
def OffsetFetchResponse.first (k : Nat) (y : OffsetFetchResponse) : OffsetFetchResponse :=
  { ThrottleTimeMs := upto k 0 y.ThrottleTimeMs 0,
    Topics := upto k 1 y.Topics none,
    ErrorCode := upto k 2 y.ErrorCode 0 }

/-- `r` is a beginning of `y`, and zeros. -/
def OffsetFetchResponse.Part (r y : OffsetFetchResponse) : Prop :=
  (∃ k, k < 3 ∧ r = y.first k) ∨
    Cut.begun {} (fun t => t.Topics) (fun t x => { t with Topics := x }) (OffsetFetchResponse.first 1) r y

/-- `OffsetFetchResponse` with its receiver kept. -/
def OffsetFetchResponse.keeps : KeptMsg OffsetFetchResponse.type := { decode := OffsetFetchResponse.decodeK, cut := OffsetFetchResponse.cut, Part := OffsetFetchResponse.Part }

theorem OffsetFetchResponse.sameK (version : Int16) : KStep (OffsetFetchResponse.decodeK version) (OffsetFetchResponse.decode version) :=
  (KStep.onlyIf (KStep.field))
    |>.andThen (KStep.structs (fun _ => rfl) (OffsetFetchResponseTopic9.sameK version {}))
    |>.andThen (KStep.onlyIf (KStep.field))
theorem OffsetFetchResponse.cutsK (version : Int16) (t : OffsetFetchResponse) (h : t.Fits version) :
    Cuts (OffsetFetchResponse.decodeK version) 0 (OffsetFetchResponse.wire version t) (OffsetFetchResponse.ends version t 2) (OffsetFetchResponse.cutAt version t 0) (OffsetFetchResponse.cutAt version t 3) :=
  (.optField (fun _ => reads_int32 t.ThrottleTimeMs) (fun _ => rfl) (fun _ => rfl) : Cuts _ 0 _ (OffsetFetchResponse.ends version t 0) (OffsetFetchResponse.cutAt version t 0) (OffsetFetchResponse.cutAt version t 1))
    |>.andThen (.structs (OffsetFetchResponseTopic9.sameK version {}) (fun x hx => OffsetFetchResponseTopic9.reads version x hx {}) h.Topics (fun _ => rfl) (fun _ => rfl) : Cuts _ (OffsetFetchResponse.ends version t 0) _ (OffsetFetchResponse.ends version t 1) (OffsetFetchResponse.cutAt version t 1) (OffsetFetchResponse.cutAt version t 2))
    |>.andThen (.optField (fun _ => reads_int16 t.ErrorCode) (fun _ => rfl) (fun _ => rfl) : Cuts _ (OffsetFetchResponse.ends version t 1) _ (OffsetFetchResponse.ends version t 2) (OffsetFetchResponse.cutAt version t 2) (OffsetFetchResponse.cutAt version t 3))
theorem OffsetFetchResponse.partsK (version : Int16) : Parts (OffsetFetchResponse.decodeK version) (OffsetFetchResponse.first 0) (OffsetFetchResponse.first 3) (fun r y => (((r = OffsetFetchResponse.first 0 y) ∨ (r = OffsetFetchResponse.first 1 y ∨ Cut.begun {} (fun t => t.Topics) (fun t x => { t with Topics := x }) (OffsetFetchResponse.first 1) r y)) ∨ (r = OffsetFetchResponse.first 2 y))) :=
  (.onlyIf (.field Longer.int32 (fun _ => rfl) (fun _ _ => rfl) (fun _ _ => rfl) (fun _ => rfl)) (fun _ => rfl) : Parts (KDec.onlyIf (version ≥ 3) (KDec.field Dec.int32 0 (fun t x => { t with ThrottleTimeMs := x }))) (OffsetFetchResponse.first 0) (OffsetFetchResponse.first 1) (fun r y => r = OffsetFetchResponse.first 0 y))
    |>.andThen (.structs (get := fun (t : OffsetFetchResponse) => t.Topics) ((OffsetFetchResponseTopic9.partsK version).longer {}) (fun _ => rfl) (fun _ => rfl) (fun _ _ => rfl) (fun _ _ => rfl) (fun _ _ => rfl) (fun _ => rfl) (fun _ => rfl) : Parts (KDec.fieldStructs (OffsetFetchResponseTopic9.decodeK version {}) {} (fun t x => { t with Topics := x })) (OffsetFetchResponse.first 1) (OffsetFetchResponse.first 2) (fun r y => r = OffsetFetchResponse.first 1 y ∨ Cut.begun {} (fun t => t.Topics) (fun t x => { t with Topics := x }) (OffsetFetchResponse.first 1) r y))
    |>.andThen (.onlyIf (.field Longer.int16 (fun _ => rfl) (fun _ _ => rfl) (fun _ _ => rfl) (fun _ => rfl)) (fun _ => rfl) : Parts (KDec.onlyIf (version ≥ 2) (KDec.field Dec.int16 0 (fun t x => { t with ErrorCode := x }))) (OffsetFetchResponse.first 2) (OffsetFetchResponse.first 3) (fun r y => r = OffsetFetchResponse.first 2 y))
theorem OffsetFetchResponse.filled (version : Int16) : FilledStep 10 55834607630 (OffsetFetchResponse.decode version) :=
  ((FilledStep.onlyIf (FilledStep.field .int32))
    |>.andThen (FilledStep.structs (OffsetFetchResponseTopic9.filled version {}))
    |>.andThen (FilledStep.onlyIf (FilledStep.field .int16))).mono (by decide) (by decide)
theorem OffsetFetchResponse.part_of (r y : OffsetFetchResponse) (h : (((r = OffsetFetchResponse.first 0 y) ∨ (r = OffsetFetchResponse.first 1 y ∨ Cut.begun {} (fun t => t.Topics) (fun t x => { t with Topics := x }) (OffsetFetchResponse.first 1) r y)) ∨ (r = OffsetFetchResponse.first 2 y))) : OffsetFetchResponse.Part r y :=
  match h with
    | (.inl (.inl h)) => .inl ⟨0, by decide, h⟩
    | (.inl (.inr (.inl h))) => .inl ⟨1, by decide, h⟩
    | (.inl (.inr (.inr h))) => (.inr h)
    | (.inr h) => .inl ⟨2, by decide, h⟩
theorem OffsetFetchResponse.keeps_holds : OffsetFetchResponse.keeps.Holds OffsetFetchResponse.layout :=
  KeptMsg.holds OffsetFetchResponse.lawful OffsetFetchResponse.sameK (stop := fun v t => OffsetFetchResponse.ends v t 2) (c := fun v t => OffsetFetchResponse.cutAt v t 0) (fun _ _ _ => rfl) OffsetFetchResponse.cutsK (c0 := OffsetFetchResponse.first 0) rfl OffsetFetchResponse.partsK OffsetFetchResponse.part_of OffsetFetchResponse.filled (by decide) (by decide)

/-- The structures of the OffsetFetch messages. -/
def keptOffsetFetch : List (Σ (M : MsgType) (_ : Layout M), KeptMsg M) :=
  [⟨OffsetFetchRequest.type, OffsetFetchRequest.layout, OffsetFetchRequest.keeps⟩,
   ⟨OffsetFetchRequestTopic9.type, OffsetFetchRequestTopic9.layout, OffsetFetchRequestTopic9.keeps⟩,
   ⟨OffsetFetchResponse.type, OffsetFetchResponse.layout, OffsetFetchResponse.keeps⟩,
   ⟨OffsetFetchResponseTopic9.type, OffsetFetchResponseTopic9.layout, OffsetFetchResponseTopic9.keeps⟩,
   ⟨OffsetFetchResponsePartition9.type, OffsetFetchResponsePartition9.layout, OffsetFetchResponsePartition9.keeps⟩]
theorem keptOffsetFetch_holds : ∀ p ∈ keptOffsetFetch, p.2.2.Holds p.2.1 := by
  unfold keptOffsetFetch
  simp only [List.forall_mem_cons]
  exact ⟨OffsetFetchRequest.keeps_holds, OffsetFetchRequestTopic9.keeps_holds, OffsetFetchResponse.keeps_holds, OffsetFetchResponseTopic9.keeps_holds, OffsetFetchResponsePartition9.keeps_holds, fun _ h => absurd h (by simp)⟩

end Kafka.Msg
