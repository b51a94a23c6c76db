import Verif.Message.KeptLemmas
import Verif.Gen.Proof.DescribeLogDirs
/-!
Generated by tools/gen_messages.py: what is in the DescribeLogDirs messages after an error.
-/
set_option linter.unusedVariables false
namespace Kafka.Msg

/-- message/messages.gen.go:9373-9384 `DescribableLogDirTopic35.Decode`, with the receiver kept -/
def DescribableLogDirTopic35.decodeK (_version : Int16) : KDec DescribableLogDirTopic35 :=
    KDec.field Dec.string [] (fun t x => { t with Topic := x }) ;|>
    KDec.field Dec.int32Array none (fun t x => { t with PartitionIndex := x })

/-- Where the fields of `DescribableLogDirTopic35` end. -/
def DescribableLogDirTopic35.ends (_version : Int16) (t : DescribableLogDirTopic35) : Nat → Nat :=
  Cut.ends 0 [Wire.string t.Topic,
    Wire.int32Array t.PartitionIndex]

/-- What is left of `t` if only its first `n` bytes are there. -/
def DescribableLogDirTopic35.cut (version : Int16) (n : Nat) (t : DescribableLogDirTopic35) : DescribableLogDirTopic35 :=
  { Topic := Cut.field n (t.ends version 0) t.Topic [],
    PartitionIndex := Cut.field n (t.ends version 1) t.PartitionIndex none }

/-- The same after the first `k` statements of `Decode`. -/
def DescribableLogDirTopic35.cutAt (version : Int16) (t : DescribableLogDirTopic35) (k n : Nat) : DescribableLogDirTopic35 :=
  { Topic := upto k 0 (Cut.field n (t.ends version 0) t.Topic []) [],
    PartitionIndex := upto k 1 (Cut.field n (t.ends version 1) t.PartitionIndex none) none }

/-- The first `k` fields of `y`, and zeros. -/
def DescribableLogDirTopic35.first (k : Nat) (y : DescribableLogDirTopic35) : DescribableLogDirTopic35 :=
  { Topic := upto k 0 y.Topic [],
    PartitionIndex := upto k 1 y.PartitionIndex none }

/-- `r` is a beginning of `y`, and zeros. -/
def DescribableLogDirTopic35.Part (r y : DescribableLogDirTopic35) : Prop :=
  (∃ k, k < 2 ∧ r = y.first k)

/-- `DescribableLogDirTopic35` with its receiver kept. -/
def DescribableLogDirTopic35.keeps : KeptMsg DescribableLogDirTopic35.type := { decode := DescribableLogDirTopic35.decodeK, cut := DescribableLogDirTopic35.cut, Part := DescribableLogDirTopic35.Part }

theorem DescribableLogDirTopic35.sameK (version : Int16) : KStep (DescribableLogDirTopic35.decodeK version) (DescribableLogDirTopic35.decode version) :=
  (KStep.field)
    |>.andThen (KStep.field)
theorem DescribableLogDirTopic35.cutsK (version : Int16) (t : DescribableLogDirTopic35) (h : t.Fits version) :
    Cuts (DescribableLogDirTopic35.decodeK version) 0 (DescribableLogDirTopic35.wire version t) (DescribableLogDirTopic35.ends version t 1) (DescribableLogDirTopic35.cutAt version t 0) (DescribableLogDirTopic35.cutAt version t 2) :=
  (.field (reads_string h.Topic) (fun _ => rfl) (fun _ => rfl) : Cuts _ 0 _ (DescribableLogDirTopic35.ends version t 0) (DescribableLogDirTopic35.cutAt version t 0) (DescribableLogDirTopic35.cutAt version t 1))
    |>.andThen (.field (reads_int32Array h.PartitionIndex) (fun _ => rfl) (fun _ => rfl) : Cuts _ (DescribableLogDirTopic35.ends version t 0) _ (DescribableLogDirTopic35.ends version t 1) (DescribableLogDirTopic35.cutAt version t 1) (DescribableLogDirTopic35.cutAt version t 2))
theorem DescribableLogDirTopic35.partsK (version : Int16) : Parts (DescribableLogDirTopic35.decodeK version) (DescribableLogDirTopic35.first 0) (DescribableLogDirTopic35.first 2) (fun r y => ((r = DescribableLogDirTopic35.first 0 y) ∨ (r = DescribableLogDirTopic35.first 1 y))) :=
  (.field Longer.string (fun _ => rfl) (fun _ _ => rfl) (fun _ _ => rfl) (fun _ => rfl) : Parts (KDec.field Dec.string [] (fun t x => { t with Topic := x })) (DescribableLogDirTopic35.first 0) (DescribableLogDirTopic35.first 1) (fun r y => r = DescribableLogDirTopic35.first 0 y))
    |>.andThen (.field Longer.int32Array (fun _ => rfl) (fun _ _ => rfl) (fun _ _ => rfl) (fun _ => rfl) : Parts (KDec.field Dec.int32Array none (fun t x => { t with PartitionIndex := x })) (DescribableLogDirTopic35.first 1) (DescribableLogDirTopic35.first 2) (fun r y => r = DescribableLogDirTopic35.first 1 y))
theorem DescribableLogDirTopic35.filled (version : Int16) : FilledStep 6 8589934600 (DescribableLogDirTopic35.decode version) :=
  ((FilledStep.field .string)
    |>.andThen (FilledStep.field .int32Array)).mono (by decide) (by decide)
theorem DescribableLogDirTopic35.part_of (r y : DescribableLogDirTopic35) (h : ((r = DescribableLogDirTopic35.first 0 y) ∨ (r = DescribableLogDirTopic35.first 1 y))) : DescribableLogDirTopic35.Part r y :=
  match h with
    | (.inl h) => ⟨0, by decide, h⟩
    | (.inr h) => ⟨1, by decide, h⟩
theorem DescribableLogDirTopic35.keeps_holds : DescribableLogDirTopic35.keeps.Holds DescribableLogDirTopic35.layout :=
  KeptMsg.holds DescribableLogDirTopic35.lawful DescribableLogDirTopic35.sameK (stop := fun v t => DescribableLogDirTopic35.ends v t 1) (c := fun v t => DescribableLogDirTopic35.cutAt v t 0) (fun _ _ _ => rfl) DescribableLogDirTopic35.cutsK (c0 := DescribableLogDirTopic35.first 0) rfl DescribableLogDirTopic35.partsK DescribableLogDirTopic35.part_of DescribableLogDirTopic35.filled (by decide) (by decide)

/-- message/messages.gen.go:9335-9351 `DescribeLogDirsRequest.Decode`, with the receiver kept -/
def DescribeLogDirsRequest.decodeK (version : Int16) : KDec DescribeLogDirsRequest :=
    KDec.fieldStructs (DescribableLogDirTopic35.decodeK version {}) {} (fun t x => { t with Topics := x })

/-- Where the fields of `DescribeLogDirsRequest` end. -/
def DescribeLogDirsRequest.ends (version : Int16) (t : DescribeLogDirsRequest) : Nat → Nat :=
  Cut.ends 0 [Wire.array (DescribableLogDirTopic35.wire version) t.Topics]

/-- What is left of `t` if only its first `n` bytes are there. -/
def DescribeLogDirsRequest.cut (version : Int16) (n : Nat) (t : DescribeLogDirsRequest) : DescribeLogDirsRequest :=
  { Topics := Cut.array n 0 (DescribableLogDirTopic35.wire version) (fun x => x.seen version {}) {} t.Topics }

/-- The same after the first `k` statements of `Decode`. -/
def DescribeLogDirsRequest.cutAt (version : Int16) (t : DescribeLogDirsRequest) (k n : Nat) : DescribeLogDirsRequest :=
  { Topics := upto k 0 (Cut.array n 0 (DescribableLogDirTopic35.wire version) (fun x => x.seen version {}) {} t.Topics) none }

/-- The first `k` fields of `y`, and zeros. -/
def DescribeLogDirsRequest.first (k : Nat) (y : DescribeLogDirsRequest) : DescribeLogDirsRequest :=
  { Topics := upto k 0 y.Topics none }

/-- `r` is a beginning of `y`, and zeros. -/
def DescribeLogDirsRequest.Part (r y : DescribeLogDirsRequest) : Prop :=
  (∃ k, k < 1 ∧ r = y.first k) ∨
    Cut.begun {} (fun t => t.Topics) (fun t x => { t with Topics := x }) (DescribeLogDirsRequest.first 0) r y

/-- `DescribeLogDirsRequest` with its receiver kept. -/
def DescribeLogDirsRequest.keeps : KeptMsg DescribeLogDirsRequest.type := { decode := DescribeLogDirsRequest.decodeK, cut := DescribeLogDirsRequest.cut, Part := DescribeLogDirsRequest.Part }

theorem DescribeLogDirsRequest.sameK (version : Int16) : KStep (DescribeLogDirsRequest.decodeK version) (DescribeLogDirsRequest.decode version) :=
  KStep.structs (fun _ => rfl) (DescribableLogDirTopic35.sameK version {})
theorem DescribeLogDirsRequest.cutsK (version : Int16) (t : DescribeLogDirsRequest) (h : t.Fits version) :
    Cuts (DescribeLogDirsRequest.decodeK version) 0 (DescribeLogDirsRequest.wire version t) (DescribeLogDirsRequest.ends version t 0) (DescribeLogDirsRequest.cutAt version t 0) (DescribeLogDirsRequest.cutAt version t 1) :=
  (.structs (DescribableLogDirTopic35.sameK version {}) (fun x hx => DescribableLogDirTopic35.reads version x hx {}) h.Topics (fun _ => rfl) (fun _ => rfl) : Cuts _ 0 _ (DescribeLogDirsRequest.ends version t 0) (DescribeLogDirsRequest.cutAt version t 0) (DescribeLogDirsRequest.cutAt version t 1))
theorem DescribeLogDirsRequest.partsK (version : Int16) : Parts (DescribeLogDirsRequest.decodeK version) (DescribeLogDirsRequest.first 0) (DescribeLogDirsRequest.first 1) (fun r y => (r = DescribeLogDirsRequest.first 0 y ∨ Cut.begun {} (fun t => t.Topics) (fun t x => { t with Topics := x }) (DescribeLogDirsRequest.first 0) r y)) :=
  (.structs (get := fun (t : DescribeLogDirsRequest) => t.Topics) ((DescribableLogDirTopic35.partsK version).longer {}) (fun _ => rfl) (fun _ => rfl) (fun _ _ => rfl) (fun _ _ => rfl) (fun _ _ => rfl) (fun _ => rfl) (fun _ => rfl) : Parts (KDec.fieldStructs (DescribableLogDirTopic35.decodeK version {}) {} (fun t x => { t with Topics := x })) (DescribeLogDirsRequest.first 0) (DescribeLogDirsRequest.first 1) (fun r y => r = DescribeLogDirsRequest.first 0 y ∨ Cut.begun {} (fun t => t.Topics) (fun t x => { t with Topics := x }) (DescribeLogDirsRequest.first 0) r y))
theorem DescribeLogDirsRequest.filled (version : Int16) : FilledStep 4 21474836492 (DescribeLogDirsRequest.decode version) :=
  (FilledStep.structs (DescribableLogDirTopic35.filled version {})).mono (by decide) (by decide)
theorem DescribeLogDirsRequest.part_of (r y : DescribeLogDirsRequest) (h : (r = DescribeLogDirsRequest.first 0 y ∨ Cut.begun {} (fun t => t.Topics) (fun t x => { t with Topics := x }) (DescribeLogDirsRequest.first 0) r y)) : DescribeLogDirsRequest.Part r y :=
  match h with
    | (.inl h) => .inl ⟨0, by decide, h⟩
    | (.inr h) => (.inr h)
theorem DescribeLogDirsRequest.keeps_holds : DescribeLogDirsRequest.keeps.Holds DescribeLogDirsRequest.layout :=
  KeptMsg.holds DescribeLogDirsRequest.lawful DescribeLogDirsRequest.sameK (stop := fun v t => DescribeLogDirsRequest.ends v t 0) (c := fun v t => DescribeLogDirsRequest.cutAt v t 0) (fun _ _ _ => rfl) DescribeLogDirsRequest.cutsK (c0 := DescribeLogDirsRequest.first 0) rfl DescribeLogDirsRequest.partsK DescribeLogDirsRequest.part_of DescribeLogDirsRequest.filled (by decide) (by decide)

/-- message/messages.gen.go:9570-9589 `DescribeLogDirsPartition35.Decode`, with the receiver kept -/
def DescribeLogDirsPartition35.decodeK (_version : Int16) : KDec DescribeLogDirsPartition35 :=
    KDec.field Dec.int32 0 (fun t x => { t with PartitionIndex := x }) ;|>
    KDec.field Dec.int64 0 (fun t x => { t with PartitionSize := x }) ;|>
    KDec.field Dec.int64 0 (fun t x => { t with OffsetLag := x }) ;|>
    KDec.field Dec.bool false (fun t x => { t with IsFutureKey := x })

/-- Where the fields of `DescribeLogDirsPartition35` end. -/
def DescribeLogDirsPartition35.ends (_version : Int16) (t : DescribeLogDirsPartition35) : Nat → Nat :=
  Cut.ends 0 [Wire.int32 t.PartitionIndex,
    Wire.int64 t.PartitionSize,
    Wire.int64 t.OffsetLag,
    Wire.bool t.IsFutureKey]

/-- What is left of `t` if only its first `n` bytes are there. -/
def DescribeLogDirsPartition35.cut (version : Int16) (n : Nat) (t : DescribeLogDirsPartition35) : DescribeLogDirsPartition35 :=
  { PartitionIndex := Cut.field n (t.ends version 0) t.PartitionIndex 0,
    PartitionSize := Cut.field n (t.ends version 1) t.PartitionSize 0,
    OffsetLag := Cut.field n (t.ends version 2) t.OffsetLag 0,
    IsFutureKey := Cut.field n (t.ends version 3) t.IsFutureKey false }

/-- The same after the first `k` statements of `Decode`. -/
def DescribeLogDirsPartition35.cutAt (version : Int16) (t : DescribeLogDirsPartition35) (k n : Nat) : DescribeLogDirsPartition35 :=
  { PartitionIndex := upto k 0 (Cut.field n (t.ends version 0) t.PartitionIndex 0) 0,
    PartitionSize := upto k 1 (Cut.field n (t.ends version 1) t.PartitionSize 0) 0,
    OffsetLag := upto k 2 (Cut.field n (t.ends version 2) t.OffsetLag 0) 0,
    IsFutureKey := upto k 3 (Cut.field n (t.ends version 3) t.IsFutureKey false) false }

/-- The first `k` fields of `y`, and zeros. -/
def DescribeLogDirsPartition35.first (k : Nat) (y : DescribeLogDirsPartition35) : DescribeLogDirsPartition35 :=
  { PartitionIndex := upto k 0 y.PartitionIndex 0,
    PartitionSize := upto k 1 y.PartitionSize 0,
    OffsetLag := upto k 2 y.OffsetLag 0,
    IsFutureKey := upto k 3 y.IsFutureKey false }

/-- `r` is a beginning of `y`, and zeros. -/
def DescribeLogDirsPartition35.Part (r y : DescribeLogDirsPartition35) : Prop :=
  (∃ k, k < 4 ∧ r = y.first k)

/-- `DescribeLogDirsPartition35` with its receiver kept. -/
def DescribeLogDirsPartition35.keeps : KeptMsg DescribeLogDirsPartition35.type := { decode := DescribeLogDirsPartition35.decodeK, cut := DescribeLogDirsPartition35.cut, Part := DescribeLogDirsPartition35.Part }

theorem DescribeLogDirsPartition35.sameK (version : Int16) : KStep (DescribeLogDirsPartition35.decodeK version) (DescribeLogDirsPartition35.decode version) :=
  (KStep.field)
    |>.andThen (KStep.field)
    |>.andThen (KStep.field)
    |>.andThen (KStep.field)
theorem DescribeLogDirsPartition35.cutsK (version : Int16) (t : DescribeLogDirsPartition35) (h : t.Fits version) :
    Cuts (DescribeLogDirsPartition35.decodeK version) 0 (DescribeLogDirsPartition35.wire version t) (DescribeLogDirsPartition35.ends version t 3) (DescribeLogDirsPartition35.cutAt version t 0) (DescribeLogDirsPartition35.cutAt version t 4) :=
  (.field (reads_int32 t.PartitionIndex) (fun _ => rfl) (fun _ => rfl) : Cuts _ 0 _ (DescribeLogDirsPartition35.ends version t 0) (DescribeLogDirsPartition35.cutAt version t 0) (DescribeLogDirsPartition35.cutAt version t 1))
    |>.andThen (.field (reads_int64 t.PartitionSize) (fun _ => rfl) (fun _ => rfl) : Cuts _ (DescribeLogDirsPartition35.ends version t 0) _ (DescribeLogDirsPartition35.ends version t 1) (DescribeLogDirsPartition35.cutAt version t 1) (DescribeLogDirsPartition35.cutAt version t 2))
    |>.andThen (.field (reads_int64 t.OffsetLag) (fun _ => rfl) (fun _ => rfl) : Cuts _ (DescribeLogDirsPartition35.ends version t 1) _ (DescribeLogDirsPartition35.ends version t 2) (DescribeLogDirsPartition35.cutAt version t 2) (DescribeLogDirsPartition35.cutAt version t 3))
    |>.andThen (.field (reads_bool t.IsFutureKey) (fun _ => rfl) (fun _ => rfl) : Cuts _ (DescribeLogDirsPartition35.ends version t 2) _ (DescribeLogDirsPartition35.ends version t 3) (DescribeLogDirsPartition35.cutAt version t 3) (DescribeLogDirsPartition35.cutAt version t 4))
theorem DescribeLogDirsPartition35.partsK (version : Int16) : Parts (DescribeLogDirsPartition35.decodeK version) (DescribeLogDirsPartition35.first 0) (DescribeLogDirsPartition35.first 4) (fun r y => ((((r = DescribeLogDirsPartition35.first 0 y) ∨ (r = DescribeLogDirsPartition35.first 1 y)) ∨ (r = DescribeLogDirsPartition35.first 2 y)) ∨ (r = DescribeLogDirsPartition35.first 3 y))) :=
  (.field Longer.int32 (fun _ => rfl) (fun _ _ => rfl) (fun _ _ => rfl) (fun _ => rfl) : Parts (KDec.field Dec.int32 0 (fun t x => { t with PartitionIndex := x })) (DescribeLogDirsPartition35.first 0) (DescribeLogDirsPartition35.first 1) (fun r y => r = DescribeLogDirsPartition35.first 0 y))
    |>.andThen (.field Longer.int64 (fun _ => rfl) (fun _ _ => rfl) (fun _ _ => rfl) (fun _ => rfl) : Parts (KDec.field Dec.int64 0 (fun t x => { t with PartitionSize := x })) (DescribeLogDirsPartition35.first 1) (DescribeLogDirsPartition35.first 2) (fun r y => r = DescribeLogDirsPartition35.first 1 y))
    |>.andThen (.field Longer.int64 (fun _ => rfl) (fun _ _ => rfl) (fun _ _ => rfl) (fun _ => rfl) : Parts (KDec.field Dec.int64 0 (fun t x => { t with OffsetLag := x })) (DescribeLogDirsPartition35.first 2) (DescribeLogDirsPartition35.first 3) (fun r y => r = DescribeLogDirsPartition35.first 2 y))
    |>.andThen (.field Longer.bool (fun _ => rfl) (fun _ _ => rfl) (fun _ _ => rfl) (fun _ => rfl) : Parts (KDec.field Dec.bool false (fun t x => { t with IsFutureKey := x })) (DescribeLogDirsPartition35.first 3) (DescribeLogDirsPartition35.first 4) (fun r y => r = DescribeLogDirsPartition35.first 3 y))
theorem DescribeLogDirsPartition35.filled (version : Int16) : FilledStep 21 21 (DescribeLogDirsPartition35.decode version) :=
  ((FilledStep.field .int32)
    |>.andThen (FilledStep.field .int64)
    |>.andThen (FilledStep.field .int64)
    |>.andThen (FilledStep.field .bool)).mono (by decide) (by decide)
theorem DescribeLogDirsPartition35.part_of (r y : DescribeLogDirsPartition35) (h : ((((r = DescribeLogDirsPartition35.first 0 y) ∨ (r = DescribeLogDirsPartition35.first 1 y)) ∨ (r = DescribeLogDirsPartition35.first 2 y)) ∨ (r = DescribeLogDirsPartition35.first 3 y))) : DescribeLogDirsPartition35.Part r y :=
  match h with
    | (.inl (.inl (.inl h))) => ⟨0, by decide, h⟩
    | (.inl (.inl (.inr h))) => ⟨1, by decide, h⟩
    | (.inl (.inr h)) => ⟨2, by decide, h⟩
    | (.inr h) => ⟨3, by decide, h⟩
theorem DescribeLogDirsPartition35.keeps_holds : DescribeLogDirsPartition35.keeps.Holds DescribeLogDirsPartition35.layout :=
  KeptMsg.holds DescribeLogDirsPartition35.lawful DescribeLogDirsPartition35.sameK (stop := fun v t => DescribeLogDirsPartition35.ends v t 3) (c := fun v t => DescribeLogDirsPartition35.cutAt v t 0) (fun _ _ _ => rfl) DescribeLogDirsPartition35.cutsK (c0 := DescribeLogDirsPartition35.first 0) rfl DescribeLogDirsPartition35.partsK DescribeLogDirsPartition35.part_of DescribeLogDirsPartition35.filled (by decide) (by decide)

/-- message/messages.gen.go:9522-9542 `DescribeLogDirsTopic35.Decode`, with the receiver kept -/
def DescribeLogDirsTopic35.decodeK (version : Int16) : KDec DescribeLogDirsTopic35 :=
    KDec.field Dec.string [] (fun t x => { t with Name := x }) ;|>
    KDec.fieldStructs (DescribeLogDirsPartition35.decodeK version {}) {} (fun t x => { t with Partitions := x })

/-- Where the fields of `DescribeLogDirsTopic35` end. -/
def DescribeLogDirsTopic35.ends (version : Int16) (t : DescribeLogDirsTopic35) : Nat → Nat :=
  Cut.ends 0 [Wire.string t.Name,
    Wire.array (DescribeLogDirsPartition35.wire version) t.Partitions]

/-- What is left of `t` if only its first `n` bytes are there. -/
def DescribeLogDirsTopic35.cut (version : Int16) (n : Nat) (t : DescribeLogDirsTopic35) : DescribeLogDirsTopic35 :=
  { Name := Cut.field n (t.ends version 0) t.Name [],
    Partitions := Cut.array n (t.ends version 0) (DescribeLogDirsPartition35.wire version) (fun x => x.seen version {}) {} t.Partitions }

/-- The same after the first `k` statements of `Decode`. -/
def DescribeLogDirsTopic35.cutAt (version : Int16) (t : DescribeLogDirsTopic35) (k n : Nat) : DescribeLogDirsTopic35 :=
  { Name := upto k 0 (Cut.field n (t.ends version 0) t.Name []) [],
    Partitions := upto k 1 (Cut.array n (t.ends version 0) (DescribeLogDirsPartition35.wire version) (fun x => x.seen version {}) {} t.Partitions) none }

/-- The first `k` fields of `y`, and zeros. -/
def DescribeLogDirsTopic35.first (k : Nat) (y : DescribeLogDirsTopic35) : DescribeLogDirsTopic35 :=
  { Name := upto k 0 y.Name [],
    Partitions := upto k 1 y.Partitions none }

/-- `r` is a beginning of `y`, and zeros. -/
def DescribeLogDirsTopic35.Part (r y : DescribeLogDirsTopic35) : Prop :=
  (∃ k, k < 2 ∧ r = y.first k) ∨
    Cut.begun {} (fun t => t.Partitions) (fun t x => { t with Partitions := x }) (DescribeLogDirsTopic35.first 1) r y

/-- `DescribeLogDirsTopic35` with its receiver kept. -/
def DescribeLogDirsTopic35.keeps : KeptMsg DescribeLogDirsTopic35.type := { decode := DescribeLogDirsTopic35.decodeK, cut := DescribeLogDirsTopic35.cut, Part := DescribeLogDirsTopic35.Part }

theorem DescribeLogDirsTopic35.sameK (version : Int16) : KStep (DescribeLogDirsTopic35.decodeK version) (DescribeLogDirsTopic35.decode version) :=
  (KStep.field)
    |>.andThen (KStep.structs (fun _ => rfl) (DescribeLogDirsPartition35.sameK version {}))
theorem DescribeLogDirsTopic35.cutsK (version : Int16) (t : DescribeLogDirsTopic35) (h : t.Fits version) :
    Cuts (DescribeLogDirsTopic35.decodeK version) 0 (DescribeLogDirsTopic35.wire version t) (DescribeLogDirsTopic35.ends version t 1) (DescribeLogDirsTopic35.cutAt version t 0) (DescribeLogDirsTopic35.cutAt version t 2) :=
  (.field (reads_string h.Name) (fun _ => rfl) (fun _ => rfl) : Cuts _ 0 _ (DescribeLogDirsTopic35.ends version t 0) (DescribeLogDirsTopic35.cutAt version t 0) (DescribeLogDirsTopic35.cutAt version t 1))
    |>.andThen (.structs (DescribeLogDirsPartition35.sameK version {}) (fun x hx => DescribeLogDirsPartition35.reads version x hx {}) h.Partitions (fun _ => rfl) (fun _ => rfl) : Cuts _ (DescribeLogDirsTopic35.ends version t 0) _ (DescribeLogDirsTopic35.ends version t 1) (DescribeLogDirsTopic35.cutAt version t 1) (DescribeLogDirsTopic35.cutAt version t 2))
theorem DescribeLogDirsTopic35.partsK (version : Int16) : Parts (DescribeLogDirsTopic35.decodeK version) (DescribeLogDirsTopic35.first 0) (DescribeLogDirsTopic35.first 2) (fun r y => ((r = DescribeLogDirsTopic35.first 0 y) ∨ (r = DescribeLogDirsTopic35.first 1 y ∨ Cut.begun {} (fun t => t.Partitions) (fun t x => { t with Partitions := x }) (DescribeLogDirsTopic35.first 1) r y))) :=
  (.field Longer.string (fun _ => rfl) (fun _ _ => rfl) (fun _ _ => rfl) (fun _ => rfl) : Parts (KDec.field Dec.string [] (fun t x => { t with Name := x })) (DescribeLogDirsTopic35.first 0) (DescribeLogDirsTopic35.first 1) (fun r y => r = DescribeLogDirsTopic35.first 0 y))
    |>.andThen (.structs (get := fun (t : DescribeLogDirsTopic35) => t.Partitions) ((DescribeLogDirsPartition35.partsK version).longer {}) (fun _ => rfl) (fun _ => rfl) (fun _ _ => rfl) (fun _ _ => rfl) (fun _ _ => rfl) (fun _ => rfl) (fun _ => rfl) : Parts (KDec.fieldStructs (DescribeLogDirsPartition35.decodeK version {}) {} (fun t x => { t with Partitions := x })) (DescribeLogDirsTopic35.first 1) (DescribeLogDirsTopic35.first 2) (fun r y => r = DescribeLogDirsTopic35.first 1 y ∨ Cut.begun {} (fun t => t.Partitions) (fun t x => { t with Partitions := x }) (DescribeLogDirsTopic35.first 1) r y))
theorem DescribeLogDirsTopic35.filled (version : Int16) : FilledStep 6 45097156633 (DescribeLogDirsTopic35.decode version) :=
  ((FilledStep.field .string)
    |>.andThen (FilledStep.structs (DescribeLogDirsPartition35.filled version {}))).mono (by decide) (by decide)
theorem DescribeLogDirsTopic35.part_of (r y : DescribeLogDirsTopic35) (h : ((r = DescribeLogDirsTopic35.first 0 y) ∨ (r = DescribeLogDirsTopic35.first 1 y ∨ Cut.begun {} (fun t => t.Partitions) (fun t x => { t with Partitions := x }) (DescribeLogDirsTopic35.first 1) r y))) : DescribeLogDirsTopic35.Part r y :=
  match h with
    | (.inl h) => .inl ⟨0, by decide, h⟩
    | (.inr (.inl h)) => .inl ⟨1, by decide, h⟩
    | (.inr (.inr h)) => (.inr h)
theorem DescribeLogDirsTopic35.keeps_holds : DescribeLogDirsTopic35.keeps.Holds DescribeLogDirsTopic35.layout :=
  KeptMsg.holds DescribeLogDirsTopic35.lawful DescribeLogDirsTopic35.sameK (stop := fun v t => DescribeLogDirsTopic35.ends v t 1) (c := fun v t => DescribeLogDirsTopic35.cutAt v t 0) (fun _ _ _ => rfl) DescribeLogDirsTopic35.cutsK (c0 := DescribeLogDirsTopic35.first 0) rfl DescribeLogDirsTopic35.partsK DescribeLogDirsTopic35.part_of DescribeLogDirsTopic35.filled (by decide) (by decide)

/-- message/messages.gen.go:9468-9492 `DescribeLogDirsResult35.Decode`, with the receiver kept -/
def DescribeLogDirsResult35.decodeK (version : Int16) : KDec DescribeLogDirsResult35 :=
    KDec.field Dec.int16 0 (fun t x => { t with ErrorCode := x }) ;|>
    KDec.field Dec.string [] (fun t x => { t with LogDir := x }) ;|>
    KDec.fieldStructs (DescribeLogDirsTopic35.decodeK version {}) {} (fun t x => { t with Topics := x })

/-- Where the fields of `DescribeLogDirsResult35` end. -/
def DescribeLogDirsResult35.ends (version : Int16) (t : DescribeLogDirsResult35) : Nat → Nat :=
  Cut.ends 0 [Wire.int16 t.ErrorCode,
    Wire.string t.LogDir,
    Wire.array (DescribeLogDirsTopic35.wire version) t.Topics]

/-- What is left of `t` if only its first `n` bytes are there. -/
def DescribeLogDirsResult35.cut (version : Int16) (n : Nat) (t : DescribeLogDirsResult35) : DescribeLogDirsResult35 :=
  { ErrorCode := Cut.field n (t.ends version 0) t.ErrorCode 0,
    LogDir := Cut.field n (t.ends version 1) t.LogDir [],
    Topics := Cut.array n (t.ends version 1) (DescribeLogDirsTopic35.wire version) (fun x => x.seen version {}) {} t.Topics }

/-- The same after the first `k` statements of `Decode`. -/
def DescribeLogDirsResult35.cutAt (version : Int16) (t : DescribeLogDirsResult35) (k n : Nat) : DescribeLogDirsResult35 :=
  { ErrorCode := upto k 0 (Cut.field n (t.ends version 0) t.ErrorCode 0) 0,
    LogDir := upto k 1 (Cut.field n (t.ends version 1) t.LogDir []) [],
    Topics := upto k 2 (Cut.array n (t.ends version 1) (DescribeLogDirsTopic35.wire version) (fun x => x.seen version {}) {} t.Topics) none }

/-- The first `k` fields of `y`, and zeros. -/
def DescribeLogDirsResult35.first (k : Nat) (y : DescribeLogDirsResult35) : DescribeLogDirsResult35 :=
  { ErrorCode := upto k 0 y.ErrorCode 0,
    LogDir := upto k 1 y.LogDir [],
    Topics := upto k 2 y.Topics none }

/-- `r` is a beginning of `y`, and zeros. -/
def DescribeLogDirsResult35.Part (r y : DescribeLogDirsResult35) : Prop :=
  (∃ k, k < 3 ∧ r = y.first k) ∨
    Cut.begun {} (fun t => t.Topics) (fun t x => { t with Topics := x }) (DescribeLogDirsResult35.first 2) r y

/-- `DescribeLogDirsResult35` with its receiver kept. -/
def DescribeLogDirsResult35.keeps : KeptMsg DescribeLogDirsResult35.type := { decode := DescribeLogDirsResult35.decodeK, cut := DescribeLogDirsResult35.cut, Part := DescribeLogDirsResult35.Part }

theorem DescribeLogDirsResult35.sameK (version : Int16) : KStep (DescribeLogDirsResult35.decodeK version) (DescribeLogDirsResult35.decode version) :=
  (KStep.field)
    |>.andThen (KStep.field)
    |>.andThen (KStep.structs (fun _ => rfl) (DescribeLogDirsTopic35.sameK version {}))
theorem DescribeLogDirsResult35.cutsK (version : Int16) (t : DescribeLogDirsResult35) (h : t.Fits version) :
    Cuts (DescribeLogDirsResult35.decodeK version) 0 (DescribeLogDirsResult35.wire version t) (DescribeLogDirsResult35.ends version t 2) (DescribeLogDirsResult35.cutAt version t 0) (DescribeLogDirsResult35.cutAt version t 3) :=
  (.field (reads_int16 t.ErrorCode) (fun _ => rfl) (fun _ => rfl) : Cuts _ 0 _ (DescribeLogDirsResult35.ends version t 0) (DescribeLogDirsResult35.cutAt version t 0) (DescribeLogDirsResult35.cutAt version t 1))
    |>.andThen (.field (reads_string h.LogDir) (fun _ => rfl) (fun _ => rfl) : Cuts _ (DescribeLogDirsResult35.ends version t 0) _ (DescribeLogDirsResult35.ends version t 1) (DescribeLogDirsResult35.cutAt version t 1) (DescribeLogDirsResult35.cutAt version t 2))
    |>.andThen (.structs (DescribeLogDirsTopic35.sameK version {}) (fun x hx => DescribeLogDirsTopic35.reads version x hx {}) h.Topics (fun _ => rfl) (fun _ => rfl) : Cuts _ (DescribeLogDirsResult35.ends version t 1) _ (DescribeLogDirsResult35.ends version t 2) (DescribeLogDirsResult35.cutAt version t 2) (DescribeLogDirsResult35.cutAt version t 3))
theorem DescribeLogDirsResult35.partsK (version : Int16) : Parts (DescribeLogDirsResult35.decodeK version) (DescribeLogDirsResult35.first 0) (DescribeLogDirsResult35.first 3) (fun r y => (((r = DescribeLogDirsResult35.first 0 y) ∨ (r = DescribeLogDirsResult35.first 1 y)) ∨ (r = DescribeLogDirsResult35.first 2 y ∨ Cut.begun {} (fun t => t.Topics) (fun t x => { t with Topics := x }) (DescribeLogDirsResult35.first 2) r y))) :=
  (.field Longer.int16 (fun _ => rfl) (fun _ _ => rfl) (fun _ _ => rfl) (fun _ => rfl) : Parts (KDec.field Dec.int16 0 (fun t x => { t with ErrorCode := x })) (DescribeLogDirsResult35.first 0) (DescribeLogDirsResult35.first 1) (fun r y => r = DescribeLogDirsResult35.first 0 y))
    |>.andThen (.field Longer.string (fun _ => rfl) (fun _ _ => rfl) (fun _ _ => rfl) (fun _ => rfl) : Parts (KDec.field Dec.string [] (fun t x => { t with LogDir := x })) (DescribeLogDirsResult35.first 1) (DescribeLogDirsResult35.first 2) (fun r y => r = DescribeLogDirsResult35.first 1 y))
    |>.andThen (.structs (get := fun (t : DescribeLogDirsResult35) => t.Topics) ((DescribeLogDirsTopic35.partsK version).longer {}) (fun _ => rfl) (fun _ => rfl) (fun _ _ => rfl) (fun _ _ => rfl) (fun _ _ => rfl) (fun _ => rfl) (fun _ => rfl) : Parts (KDec.fieldStructs (DescribeLogDirsTopic35.decodeK version {}) {} (fun t x => { t with Topics := x })) (DescribeLogDirsResult35.first 2) (DescribeLogDirsResult35.first 3) (fun r y => r = DescribeLogDirsResult35.first 2 y ∨ Cut.begun {} (fun t => t.Topics) (fun t x => { t with Topics := x }) (DescribeLogDirsResult35.first 2) r y))
theorem DescribeLogDirsResult35.filled (version : Int16) : FilledStep 8 57982058525 (DescribeLogDirsResult35.decode version) :=
  ((FilledStep.field .int16)
    |>.andThen (FilledStep.field .string)
    |>.andThen (FilledStep.structs (DescribeLogDirsTopic35.filled version {}))).mono (by decide) (by decide)
theorem DescribeLogDirsResult35.part_of (r y : DescribeLogDirsResult35) (h : (((r = DescribeLogDirsResult35.first 0 y) ∨ (r = DescribeLogDirsResult35.first 1 y)) ∨ (r = DescribeLogDirsResult35.first 2 y ∨ Cut.begun {} (fun t => t.Topics) (fun t x => { t with Topics := x }) (DescribeLogDirsResult35.first 2) r y))) : DescribeLogDirsResult35.Part r y :=
  match h with
    | (.inl (.inl h)) => .inl ⟨0, by decide, h⟩
    | (.inl (.inr h)) => .inl ⟨1, by decide, h⟩
    | (.inr (.inl h)) => .inl ⟨2, by decide, h⟩
    | (.inr (.inr h)) => (.inr h)
theorem DescribeLogDirsResult35.keeps_holds : DescribeLogDirsResult35.keeps.Holds DescribeLogDirsResult35.layout :=
  KeptMsg.holds DescribeLogDirsResult35.lawful DescribeLogDirsResult35.sameK (stop := fun v t => DescribeLogDirsResult35.ends v t 2) (c := fun v t => DescribeLogDirsResult35.cutAt v t 0) (fun _ _ _ => rfl) DescribeLogDirsResult35.cutsK (c0 := DescribeLogDirsResult35.first 0) rfl DescribeLogDirsResult35.partsK DescribeLogDirsResult35.part_of DescribeLogDirsResult35.filled (by decide) (by decide)

/-- message/messages.gen.go:9415-9435 `DescribeLogDirsResponse.Decode`, with the receiver kept -/
def DescribeLogDirsResponse.decodeK (version : Int16) : KDec DescribeLogDirsResponse :=
    KDec.field Dec.int32 0 (fun t x => { t with ThrottleTimeMs := x }) ;|>
    KDec.fieldStructs (DescribeLogDirsResult35.decodeK version {}) {} (fun t x => { t with Results := x })

/-- Where the fields of `DescribeLogDirsResponse` end. -/
def DescribeLogDirsResponse.ends (version : Int16) (t : DescribeLogDirsResponse) : Nat → Nat :=
  Cut.ends 0 [Wire.int32 t.ThrottleTimeMs,
    Wire.array (DescribeLogDirsResult35.wire version) t.Results]

/-- What is left of `t` if only its first `n` bytes are there. -/
def DescribeLogDirsResponse.cut (version : Int16) (n : Nat) (t : DescribeLogDirsResponse) : DescribeLogDirsResponse :=
  { ThrottleTimeMs := Cut.field n (t.ends version 0) t.ThrottleTimeMs 0,
    Results := Cut.array n (t.ends version 0) (DescribeLogDirsResult35.wire version) (fun x => x.seen version {}) {} t.Results }

/-- The same after the first `k` statements of `Decode`. -/
def DescribeLogDirsResponse.cutAt (version : Int16) (t : DescribeLogDirsResponse) (k n : Nat) : DescribeLogDirsResponse :=
  { ThrottleTimeMs := upto k 0 (Cut.field n (t.ends version 0) t.ThrottleTimeMs 0) 0,
    Results := upto k 1 (Cut.array n (t.ends version 0) (DescribeLogDirsResult35.wire version) (fun x => x.seen version {}) {} t.Results) none }

/-- The first `k` fields of `y`, and zeros. -/
def DescribeLogDirsResponse.first (k : Nat) (y : DescribeLogDirsResponse) : DescribeLogDirsResponse :=
  { ThrottleTimeMs := upto k 0 y.ThrottleTimeMs 0,
    Results := upto k 1 y.Results none }

/-- `r` is a beginning of `y`, and zeros. -/
def DescribeLogDirsResponse.Part (r y : DescribeLogDirsResponse) : Prop :=
  (∃ k, k < 2 ∧ r = y.first k) ∨
    Cut.begun {} (fun t => t.Results) (fun t x => { t with Results := x }) (DescribeLogDirsResponse.first 1) r y

/-- `DescribeLogDirsResponse` with its receiver kept. -/
def DescribeLogDirsResponse.keeps : KeptMsg DescribeLogDirsResponse.type := { decode := DescribeLogDirsResponse.decodeK, cut := DescribeLogDirsResponse.cut, Part := DescribeLogDirsResponse.Part }

theorem DescribeLogDirsResponse.sameK (version : Int16) : KStep (DescribeLogDirsResponse.decodeK version) (DescribeLogDirsResponse.decode version) :=
  (KStep.field)
    |>.andThen (KStep.structs (fun _ => rfl) (DescribeLogDirsResult35.sameK version {}))
theorem DescribeLogDirsResponse.cutsK (version : Int16) (t : DescribeLogDirsResponse) (h : t.Fits version) :
    Cuts (DescribeLogDirsResponse.decodeK version) 0 (DescribeLogDirsResponse.wire version t) (DescribeLogDirsResponse.ends version t 1) (DescribeLogDirsResponse.cutAt version t 0) (DescribeLogDirsResponse.cutAt version t 2) :=
  (.field (reads_int32 t.ThrottleTimeMs) (fun _ => rfl) (fun _ => rfl) : Cuts _ 0 _ (DescribeLogDirsResponse.ends version t 0) (DescribeLogDirsResponse.cutAt version t 0) (DescribeLogDirsResponse.cutAt version t 1))
    |>.andThen (.structs (DescribeLogDirsResult35.sameK version {}) (fun x hx => DescribeLogDirsResult35.reads version x hx {}) h.Results (fun _ => rfl) (fun _ => rfl) : Cuts _ (DescribeLogDirsResponse.ends version t 0) _ (DescribeLogDirsResponse.ends version t 1) (DescribeLogDirsResponse.cutAt version t 1) (DescribeLogDirsResponse.cutAt version t 2))
theorem DescribeLogDirsResponse.partsK (version : Int16) : Parts (DescribeLogDirsResponse.decodeK version) (DescribeLogDirsResponse.first 0) (DescribeLogDirsResponse.first 2) (fun r y => ((r = DescribeLogDirsResponse.first 0 y) ∨ (r = DescribeLogDirsResponse.first 1 y ∨ Cut.begun {} (fun t => t.Results) (fun t x => { t with Results := x }) (DescribeLogDirsResponse.first 1) r y))) :=
  (.field Longer.int32 (fun _ => rfl) (fun _ _ => rfl) (fun _ _ => rfl) (fun _ => rfl) : Parts (KDec.field Dec.int32 0 (fun t x => { t with ThrottleTimeMs := x })) (DescribeLogDirsResponse.first 0) (DescribeLogDirsResponse.first 1) (fun r y => r = DescribeLogDirsResponse.first 0 y))
    |>.andThen (.structs (get := fun (t : DescribeLogDirsResponse) => t.Results) ((DescribeLogDirsResult35.partsK version).longer {}) (fun _ => rfl) (fun _ => rfl) (fun _ _ => rfl) (fun _ _ => rfl) (fun _ _ => rfl) (fun _ => rfl) (fun _ => rfl) : Parts (KDec.fieldStructs (DescribeLogDirsResult35.decodeK version {}) {} (fun t x => { t with Results := x })) (DescribeLogDirsResponse.first 1) (DescribeLogDirsResponse.first 2) (fun r y => r = DescribeLogDirsResponse.first 1 y ∨ Cut.begun {} (fun t => t.Results) (fun t x => { t with Results := x }) (DescribeLogDirsResponse.first 1) r y))
theorem DescribeLogDirsResponse.filled (version : Int16) : FilledStep 8 75161927713 (DescribeLogDirsResponse.decode version) :=
  ((FilledStep.field .int32)
    |>.andThen (FilledStep.structs (DescribeLogDirsResult35.filled version {}))).mono (by decide) (by decide)
theorem DescribeLogDirsResponse.part_of (r y : DescribeLogDirsResponse) (h : ((r = DescribeLogDirsResponse.first 0 y) ∨ (r = DescribeLogDirsResponse.first 1 y ∨ Cut.begun {} (fun t => t.Results) (fun t x => { t with Results := x }) (DescribeLogDirsResponse.first 1) r y))) : DescribeLogDirsResponse.Part r y :=
  match h with
    | (.inl h) => .inl ⟨0, by decide, h⟩
    | (.inr (.inl h)) => .inl ⟨1, by decide, h⟩
    | (.inr (.inr h)) => (.inr h)
theorem DescribeLogDirsResponse.keeps_holds : DescribeLogDirsResponse.keeps.Holds DescribeLogDirsResponse.layout :=
  KeptMsg.holds DescribeLogDirsResponse.lawful DescribeLogDirsResponse.sameK (stop := fun v t => DescribeLogDirsResponse.ends v t 1) (c := fun v t => DescribeLogDirsResponse.cutAt v t 0) (fun _ _ _ => rfl) DescribeLogDirsResponse.cutsK (c0 := DescribeLogDirsResponse.first 0) rfl DescribeLogDirsResponse.partsK DescribeLogDirsResponse.part_of DescribeLogDirsResponse.filled (by decide) (by decide)

/-- The structures of the DescribeLogDirs messages. -/
def keptDescribeLogDirs : List (Σ (M : MsgType) (_ : Layout M), KeptMsg M) :=
  [⟨DescribeLogDirsRequest.type, DescribeLogDirsRequest.layout, DescribeLogDirsRequest.keeps⟩,
   ⟨DescribableLogDirTopic35.type, DescribableLogDirTopic35.layout, DescribableLogDirTopic35.keeps⟩,
   ⟨DescribeLogDirsResponse.type, DescribeLogDirsResponse.layout, DescribeLogDirsResponse.keeps⟩,
   ⟨DescribeLogDirsResult35.type, DescribeLogDirsResult35.layout, DescribeLogDirsResult35.keeps⟩,
   ⟨DescribeLogDirsTopic35.type, DescribeLogDirsTopic35.layout, DescribeLogDirsTopic35.keeps⟩,
   ⟨DescribeLogDirsPartition35.type, DescribeLogDirsPartition35.layout, DescribeLogDirsPartition35.keeps⟩]
theorem keptDescribeLogDirs_holds : ∀ p ∈ keptDescribeLogDirs, p.2.2.Holds p.2.1 := by
  unfold keptDescribeLogDirs
  simp only [List.forall_mem_cons]
  exact ⟨DescribeLogDirsRequest.keeps_holds, DescribableLogDirTopic35.keeps_holds, DescribeLogDirsResponse.keeps_holds, DescribeLogDirsResult35.keeps_holds, DescribeLogDirsTopic35.keeps_holds, DescribeLogDirsPartition35.keeps_holds, fun _ h => absurd h (by simp)⟩

end Kafka.Msg
