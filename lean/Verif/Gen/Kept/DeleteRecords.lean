import Verif.Message.KeptLemmas
import Verif.Gen.Proof.DeleteRecords
/-!
Generated by tools/gen_messages.py: what is in the DeleteRecords messages after an error.
-/
set_option linter.unusedVariables false
namespace Kafka.Msg

/-- message/messages.gen.go:6077-6088 `DeleteRecordsPartition21.Decode`, with the receiver kept -/
def DeleteRecordsPartition21.decodeK (_version : Int16) : KDec DeleteRecordsPartition21 :=
    KDec.field Dec.int32 0 (fun t x => { t with PartitionIndex := x }) ;|>
    KDec.field Dec.int64 0 (fun t x => { t with Offset := x })

/-- Where the fields of `DeleteRecordsPartition21` end. -/
def DeleteRecordsPartition21.ends (_version : Int16) (t : DeleteRecordsPartition21) : Nat → Nat :=
  Cut.ends 0 [Wire.int32 t.PartitionIndex,
    Wire.int64 t.Offset]

/-- What is left of `t` if only its first `n` bytes are there. -/
def DeleteRecordsPartition21.cut (version : Int16) (n : Nat) (t : DeleteRecordsPartition21) : DeleteRecordsPartition21 :=
  { PartitionIndex := Cut.field n (t.ends version 0) t.PartitionIndex 0,
    Offset := Cut.field n (t.ends version 1) t.Offset 0 }

/-- The same after the first `k` statements of `Decode`. -/
def DeleteRecordsPartition21.cutAt (version : Int16) (t : DeleteRecordsPartition21) (k n : Nat) : DeleteRecordsPartition21 :=
  { PartitionIndex := upto k 0 (Cut.field n (t.ends version 0) t.PartitionIndex 0) 0,
    Offset := upto k 1 (Cut.field n (t.ends version 1) t.Offset 0) 0 }

/-- The first `k` fields of `y`, and zeros. -/
def DeleteRecordsPartition21.first (k : Nat) (y : DeleteRecordsPartition21) : DeleteRecordsPartition21 :=
  { PartitionIndex := upto k 0 y.PartitionIndex 0,
    Offset := upto k 1 y.Offset 0 }

/-- `r` is a beginning of `y`, and zeros. -/
def DeleteRecordsPartition21.Part (r y : DeleteRecordsPartition21) : Prop :=
  (∃ k, k < 2 ∧ r = y.first k)

/-- `DeleteRecordsPartition21` with its receiver kept. -/
def DeleteRecordsPartition21.keeps : KeptMsg DeleteRecordsPartition21.type := { decode := DeleteRecordsPartition21.decodeK, cut := DeleteRecordsPartition21.cut, Part := DeleteRecordsPartition21.Part }

theorem DeleteRecordsPartition21.sameK (version : Int16) : KStep (DeleteRecordsPartition21.decodeK version) (DeleteRecordsPartition21.decode version) :=
  (KStep.field)
    |>.andThen (KStep.field)
theorem DeleteRecordsPartition21.cutsK (version : Int16) (t : DeleteRecordsPartition21) (h : t.Fits version) :
    Cuts (DeleteRecordsPartition21.decodeK version) 0 (DeleteRecordsPartition21.wire version t) (DeleteRecordsPartition21.ends version t 1) (DeleteRecordsPartition21.cutAt version t 0) (DeleteRecordsPartition21.cutAt version t 2) :=
  (.field (reads_int32 t.PartitionIndex) (fun _ => rfl) (fun _ => rfl) : Cuts _ 0 _ (DeleteRecordsPartition21.ends version t 0) (DeleteRecordsPartition21.cutAt version t 0) (DeleteRecordsPartition21.cutAt version t 1))
    |>.andThen (.field (reads_int64 t.Offset) (fun _ => rfl) (fun _ => rfl) : Cuts _ (DeleteRecordsPartition21.ends version t 0) _ (DeleteRecordsPartition21.ends version t 1) (DeleteRecordsPartition21.cutAt version t 1) (DeleteRecordsPartition21.cutAt version t 2))
theorem DeleteRecordsPartition21.partsK (version : Int16) : Parts (DeleteRecordsPartition21.decodeK version) (DeleteRecordsPartition21.first 0) (DeleteRecordsPartition21.first 2) (fun r y => ((r = DeleteRecordsPartition21.first 0 y) ∨ (r = DeleteRecordsPartition21.first 1 y))) :=
  (.field Longer.int32 (fun _ => rfl) (fun _ _ => rfl) (fun _ _ => rfl) (fun _ => rfl) : Parts (KDec.field Dec.int32 0 (fun t x => { t with PartitionIndex := x })) (DeleteRecordsPartition21.first 0) (DeleteRecordsPartition21.first 1) (fun r y => r = DeleteRecordsPartition21.first 0 y))
    |>.andThen (.field Longer.int64 (fun _ => rfl) (fun _ _ => rfl) (fun _ _ => rfl) (fun _ => rfl) : Parts (KDec.field Dec.int64 0 (fun t x => { t with Offset := x })) (DeleteRecordsPartition21.first 1) (DeleteRecordsPartition21.first 2) (fun r y => r = DeleteRecordsPartition21.first 1 y))
theorem DeleteRecordsPartition21.filled (version : Int16) : FilledStep 12 12 (DeleteRecordsPartition21.decode version) :=
  ((FilledStep.field .int32)
    |>.andThen (FilledStep.field .int64)).mono (by decide) (by decide)
theorem DeleteRecordsPartition21.part_of (r y : DeleteRecordsPartition21) (h : ((r = DeleteRecordsPartition21.first 0 y) ∨ (r = DeleteRecordsPartition21.first 1 y))) : DeleteRecordsPartition21.Part r y :=
  match h with
    | (.inl h) => ⟨0, by decide, h⟩
    | (.inr h) => ⟨1, by decide, h⟩
theorem DeleteRecordsPartition21.keeps_holds : DeleteRecordsPartition21.keeps.Holds DeleteRecordsPartition21.layout :=
  KeptMsg.holds DeleteRecordsPartition21.lawful DeleteRecordsPartition21.sameK (stop := fun v t => DeleteRecordsPartition21.ends v t 1) (c := fun v t => DeleteRecordsPartition21.cutAt v t 0) (fun _ _ _ => rfl) DeleteRecordsPartition21.cutsK (c0 := DeleteRecordsPartition21.first 0) rfl DeleteRecordsPartition21.partsK DeleteRecordsPartition21.part_of DeleteRecordsPartition21.filled (by decide) (by decide)

/-- message/messages.gen.go:6035-6055 `DeleteRecordsTopic21.Decode`, with the receiver kept -/
def DeleteRecordsTopic21.decodeK (version : Int16) : KDec DeleteRecordsTopic21 :=
    KDec.field Dec.string [] (fun t x => { t with Name := x }) ;|>
    KDec.fieldStructs (DeleteRecordsPartition21.decodeK version {}) {} (fun t x => { t with Partitions := x })

/-- Where the fields of `DeleteRecordsTopic21` end. -/
def DeleteRecordsTopic21.ends (version : Int16) (t : DeleteRecordsTopic21) : Nat → Nat :=
  Cut.ends 0 [Wire.string t.Name,
    Wire.array (DeleteRecordsPartition21.wire version) t.Partitions]

/-- What is left of `t` if only its first `n` bytes are there. -/
def DeleteRecordsTopic21.cut (version : Int16) (n : Nat) (t : DeleteRecordsTopic21) : DeleteRecordsTopic21 :=
  { Name := Cut.field n (t.ends version 0) t.Name [],
    Partitions := Cut.array n (t.ends version 0) (DeleteRecordsPartition21.wire version) (fun x => x.seen version {}) {} t.Partitions }

/-- The same after the first `k` statements of `Decode`. -/
def DeleteRecordsTopic21.cutAt (version : Int16) (t : DeleteRecordsTopic21) (k n : Nat) : DeleteRecordsTopic21 :=
  { Name := upto k 0 (Cut.field n (t.ends version 0) t.Name []) [],
    Partitions := upto k 1 (Cut.array n (t.ends version 0) (DeleteRecordsPartition21.wire version) (fun x => x.seen version {}) {} t.Partitions) none }

/-- The first `k` fields of `y`, and zeros. -/
def DeleteRecordsTopic21.first (k : Nat) (y : DeleteRecordsTopic21) : DeleteRecordsTopic21 :=
  { Name := upto k 0 y.Name [],
    Partitions := upto k 1 y.Partitions none }

/-- `r` is a beginning of `y`, and zeros. -/
def DeleteRecordsTopic21.Part (r y : DeleteRecordsTopic21) : Prop :=
  (∃ k, k < 2 ∧ r = y.first k) ∨
    Cut.begun {} (fun t => t.Partitions) (fun t x => { t with Partitions := x }) (DeleteRecordsTopic21.first 1) r y

/-- `DeleteRecordsTopic21` with its receiver kept. -/
def DeleteRecordsTopic21.keeps : KeptMsg DeleteRecordsTopic21.type := { decode := DeleteRecordsTopic21.decodeK, cut := DeleteRecordsTopic21.cut, Part := DeleteRecordsTopic21.Part }

theorem DeleteRecordsTopic21.sameK (version : Int16) : KStep (DeleteRecordsTopic21.decodeK version) (DeleteRecordsTopic21.decode version) :=
  (KStep.field)
    |>.andThen (KStep.structs (fun _ => rfl) (DeleteRecordsPartition21.sameK version {}))
theorem DeleteRecordsTopic21.cutsK (version : Int16) (t : DeleteRecordsTopic21) (h : t.Fits version) :
    Cuts (DeleteRecordsTopic21.decodeK version) 0 (DeleteRecordsTopic21.wire version t) (DeleteRecordsTopic21.ends version t 1) (DeleteRecordsTopic21.cutAt version t 0) (DeleteRecordsTopic21.cutAt version t 2) :=
  (.field (reads_string h.Name) (fun _ => rfl) (fun _ => rfl) : Cuts _ 0 _ (DeleteRecordsTopic21.ends version t 0) (DeleteRecordsTopic21.cutAt version t 0) (DeleteRecordsTopic21.cutAt version t 1))
    |>.andThen (.structs (DeleteRecordsPartition21.sameK version {}) (fun x hx => DeleteRecordsPartition21.reads version x hx {}) h.Partitions (fun _ => rfl) (fun _ => rfl) : Cuts _ (DeleteRecordsTopic21.ends version t 0) _ (DeleteRecordsTopic21.ends version t 1) (DeleteRecordsTopic21.cutAt version t 1) (DeleteRecordsTopic21.cutAt version t 2))
theorem DeleteRecordsTopic21.partsK (version : Int16) : Parts (DeleteRecordsTopic21.decodeK version) (DeleteRecordsTopic21.first 0) (DeleteRecordsTopic21.first 2) (fun r y => ((r = DeleteRecordsTopic21.first 0 y) ∨ (r = DeleteRecordsTopic21.first 1 y ∨ Cut.begun {} (fun t => t.Partitions) (fun t x => { t with Partitions := x }) (DeleteRecordsTopic21.first 1) r y))) :=
  (.field Longer.string (fun _ => rfl) (fun _ _ => rfl) (fun _ _ => rfl) (fun _ => rfl) : Parts (KDec.field Dec.string [] (fun t x => { t with Name := x })) (DeleteRecordsTopic21.first 0) (DeleteRecordsTopic21.first 1) (fun r y => r = DeleteRecordsTopic21.first 0 y))
    |>.andThen (.structs (get := fun (t : DeleteRecordsTopic21) => t.Partitions) ((DeleteRecordsPartition21.partsK version).longer {}) (fun _ => rfl) (fun _ => rfl) (fun _ _ => rfl) (fun _ _ => rfl) (fun _ _ => rfl) (fun _ => rfl) (fun _ => rfl) : Parts (KDec.fieldStructs (DeleteRecordsPartition21.decodeK version {}) {} (fun t x => { t with Partitions := x })) (DeleteRecordsTopic21.first 1) (DeleteRecordsTopic21.first 2) (fun r y => r = DeleteRecordsTopic21.first 1 y ∨ Cut.begun {} (fun t => t.Partitions) (fun t x => { t with Partitions := x }) (DeleteRecordsTopic21.first 1) r y))
theorem DeleteRecordsTopic21.filled (version : Int16) : FilledStep 6 25769803792 (DeleteRecordsTopic21.decode version) :=
  ((FilledStep.field .string)
    |>.andThen (FilledStep.structs (DeleteRecordsPartition21.filled version {}))).mono (by decide) (by decide)
theorem DeleteRecordsTopic21.part_of (r y : DeleteRecordsTopic21) (h : ((r = DeleteRecordsTopic21.first 0 y) ∨ (r = DeleteRecordsTopic21.first 1 y ∨ Cut.begun {} (fun t => t.Partitions) (fun t x => { t with Partitions := x }) (DeleteRecordsTopic21.first 1) r y))) : DeleteRecordsTopic21.Part r y :=
  match h with
    | (.inl h) => .inl ⟨0, by decide, h⟩
    | (.inr (.inl h)) => .inl ⟨1, by decide, h⟩
    | (.inr (.inr h)) => (.inr h)
theorem DeleteRecordsTopic21.keeps_holds : DeleteRecordsTopic21.keeps.Holds DeleteRecordsTopic21.layout :=
  KeptMsg.holds DeleteRecordsTopic21.lawful DeleteRecordsTopic21.sameK (stop := fun v t => DeleteRecordsTopic21.ends v t 1) (c := fun v t => DeleteRecordsTopic21.cutAt v t 0) (fun _ _ _ => rfl) DeleteRecordsTopic21.cutsK (c0 := DeleteRecordsTopic21.first 0) rfl DeleteRecordsTopic21.partsK DeleteRecordsTopic21.part_of DeleteRecordsTopic21.filled (by decide) (by decide)

/-- message/messages.gen.go:5985-6005 `DeleteRecordsRequest.Decode`, with the receiver kept -/
def DeleteRecordsRequest.decodeK (version : Int16) : KDec DeleteRecordsRequest :=
    KDec.fieldStructs (DeleteRecordsTopic21.decodeK version {}) {} (fun t x => { t with Topics := x }) ;|>
    KDec.field Dec.int32 0 (fun t x => { t with TimeoutMs := x })

/-- Where the fields of `DeleteRecordsRequest` end. -/
def DeleteRecordsRequest.ends (version : Int16) (t : DeleteRecordsRequest) : Nat → Nat :=
  Cut.ends 0 [Wire.array (DeleteRecordsTopic21.wire version) t.Topics,
    Wire.int32 t.TimeoutMs]

/-- What is left of `t` if only its first `n` bytes are there. -/
def DeleteRecordsRequest.cut (version : Int16) (n : Nat) (t : DeleteRecordsRequest) : DeleteRecordsRequest :=
  { Topics := Cut.array n 0 (DeleteRecordsTopic21.wire version) (fun x => x.seen version {}) {} t.Topics,
    TimeoutMs := Cut.field n (t.ends version 1) t.TimeoutMs 0 }

/-- The same after the first `k` statements of `Decode`. -/
def DeleteRecordsRequest.cutAt (version : Int16) (t : DeleteRecordsRequest) (k n : Nat) : DeleteRecordsRequest :=
  { Topics := upto k 0 (Cut.array n 0 (DeleteRecordsTopic21.wire version) (fun x => x.seen version {}) {} t.Topics) none,
    TimeoutMs := upto k 1 (Cut.field n (t.ends version 1) t.TimeoutMs 0) 0 }

/-- The first `k` fields of `y`, and zeros. -/
def DeleteRecordsRequest.first (k : Nat) (y : DeleteRecordsRequest) : DeleteRecordsRequest :=
  { Topics := upto k 0 y.Topics none,
    TimeoutMs := upto k 1 y.TimeoutMs 0 }

/-- `r` is a beginning of `y`, and zeros. -/
def DeleteRecordsRequest.Part (r y : DeleteRecordsRequest) : Prop :=
  (∃ k, k < 2 ∧ r = y.first k) ∨
    Cut.begun {} (fun t => t.Topics) (fun t x => { t with Topics := x }) (DeleteRecordsRequest.first 0) r y

/-- `DeleteRecordsRequest` with its receiver kept. -/
def DeleteRecordsRequest.keeps : KeptMsg DeleteRecordsRequest.type := { decode := DeleteRecordsRequest.decodeK, cut := DeleteRecordsRequest.cut, Part := DeleteRecordsRequest.Part }

theorem DeleteRecordsRequest.sameK (version : Int16) : KStep (DeleteRecordsRequest.decodeK version) (DeleteRecordsRequest.decode version) :=
  (KStep.structs (fun _ => rfl) (DeleteRecordsTopic21.sameK version {}))
    |>.andThen (KStep.field)
theorem DeleteRecordsRequest.cutsK (version : Int16) (t : DeleteRecordsRequest) (h : t.Fits version) :
    Cuts (DeleteRecordsRequest.decodeK version) 0 (DeleteRecordsRequest.wire version t) (DeleteRecordsRequest.ends version t 1) (DeleteRecordsRequest.cutAt version t 0) (DeleteRecordsRequest.cutAt version t 2) :=
  (.structs (DeleteRecordsTopic21.sameK version {}) (fun x hx => DeleteRecordsTopic21.reads version x hx {}) h.Topics (fun _ => rfl) (fun _ => rfl) : Cuts _ 0 _ (DeleteRecordsRequest.ends version t 0) (DeleteRecordsRequest.cutAt version t 0) (DeleteRecordsRequest.cutAt version t 1))
    |>.andThen (.field (reads_int32 t.TimeoutMs) (fun _ => rfl) (fun _ => rfl) : Cuts _ (DeleteRecordsRequest.ends version t 0) _ (DeleteRecordsRequest.ends version t 1) (DeleteRecordsRequest.cutAt version t 1) (DeleteRecordsRequest.cutAt version t 2))
theorem DeleteRecordsRequest.partsK (version : Int16) : Parts (DeleteRecordsRequest.decodeK version) (DeleteRecordsRequest.first 0) (DeleteRecordsRequest.first 2) (fun r y => ((r = DeleteRecordsRequest.first 0 y ∨ Cut.begun {} (fun t => t.Topics) (fun t x => { t with Topics := x }) (DeleteRecordsRequest.first 0) r y) ∨ (r = DeleteRecordsRequest.first 1 y))) :=
  (.structs (get := fun (t : DeleteRecordsRequest) => t.Topics) ((DeleteRecordsTopic21.partsK version).longer {}) (fun _ => rfl) (fun _ => rfl) (fun _ _ => rfl) (fun _ _ => rfl) (fun _ _ => rfl) (fun _ => rfl) (fun _ => rfl) : Parts (KDec.fieldStructs (DeleteRecordsTopic21.decodeK version {}) {} (fun t x => { t with Topics := x })) (DeleteRecordsRequest.first 0) (DeleteRecordsRequest.first 1) (fun r y => r = DeleteRecordsRequest.first 0 y ∨ Cut.begun {} (fun t => t.Topics) (fun t x => { t with Topics := x }) (DeleteRecordsRequest.first 0) r y))
    |>.andThen (.field Longer.int32 (fun _ => rfl) (fun _ _ => rfl) (fun _ _ => rfl) (fun _ => rfl) : Parts (KDec.field Dec.int32 0 (fun t x => { t with TimeoutMs := x })) (DeleteRecordsRequest.first 1) (DeleteRecordsRequest.first 2) (fun r y => r = DeleteRecordsRequest.first 1 y))
theorem DeleteRecordsRequest.filled (version : Int16) : FilledStep 8 38654705688 (DeleteRecordsRequest.decode version) :=
  ((FilledStep.structs (DeleteRecordsTopic21.filled version {}))
    |>.andThen (FilledStep.field .int32)).mono (by decide) (by decide)
theorem DeleteRecordsRequest.part_of (r y : DeleteRecordsRequest) (h : ((r = DeleteRecordsRequest.first 0 y ∨ Cut.begun {} (fun t => t.Topics) (fun t x => { t with Topics := x }) (DeleteRecordsRequest.first 0) r y) ∨ (r = DeleteRecordsRequest.first 1 y))) : DeleteRecordsRequest.Part r y :=
  match h with
    | (.inl (.inl h)) => .inl ⟨0, by decide, h⟩
    | (.inl (.inr h)) => (.inr h)
    | (.inr h) => .inl ⟨1, by decide, h⟩
theorem DeleteRecordsRequest.keeps_holds : DeleteRecordsRequest.keeps.Holds DeleteRecordsRequest.layout :=
  KeptMsg.holds DeleteRecordsRequest.lawful DeleteRecordsRequest.sameK (stop := fun v t => DeleteRecordsRequest.ends v t 1) (c := fun v t => DeleteRecordsRequest.cutAt v t 0) (fun _ _ _ => rfl) DeleteRecordsRequest.cutsK (c0 := DeleteRecordsRequest.first 0) rfl DeleteRecordsRequest.partsK DeleteRecordsRequest.part_of DeleteRecordsRequest.filled (by decide) (by decide)

/-- message/messages.gen.go:6214-6229 `DeleteRecordsPartitionResult21.Decode`, with the receiver kept -/
def DeleteRecordsPartitionResult21.decodeK (_version : Int16) : KDec DeleteRecordsPartitionResult21 :=
    KDec.field Dec.int32 0 (fun t x => { t with PartitionIndex := x }) ;|>
    KDec.field Dec.int64 0 (fun t x => { t with LowWatermark := x }) ;|>
    KDec.field Dec.int16 0 (fun t x => { t with ErrorCode := x })

/-- Where the fields of `DeleteRecordsPartitionResult21` end. -/
def DeleteRecordsPartitionResult21.ends (_version : Int16) (t : DeleteRecordsPartitionResult21) : Nat → Nat :=
  Cut.ends 0 [Wire.int32 t.PartitionIndex,
    Wire.int64 t.LowWatermark,
    Wire.int16 t.ErrorCode]

/-- What is left of `t` if only its first `n` bytes are there. -/
def DeleteRecordsPartitionResult21.cut (version : Int16) (n : Nat) (t : DeleteRecordsPartitionResult21) : DeleteRecordsPartitionResult21 :=
  { PartitionIndex := Cut.field n (t.ends version 0) t.PartitionIndex 0,
    LowWatermark := Cut.field n (t.ends version 1) t.LowWatermark 0,
    ErrorCode := Cut.field n (t.ends version 2) t.ErrorCode 0 }

/-- The same after the first `k` statements of `Decode`. -/
def DeleteRecordsPartitionResult21.cutAt (version : Int16) (t : DeleteRecordsPartitionResult21) (k n : Nat) : DeleteRecordsPartitionResult21 :=
  { PartitionIndex := upto k 0 (Cut.field n (t.ends version 0) t.PartitionIndex 0) 0,
    LowWatermark := upto k 1 (Cut.field n (t.ends version 1) t.LowWatermark 0) 0,
    ErrorCode := upto k 2 (Cut.field n (t.ends version 2) t.ErrorCode 0) 0 }

/-- The first `k` fields of `y`, and zeros. -/
def DeleteRecordsPartitionResult21.first (k : Nat) (y : DeleteRecordsPartitionResult21) : DeleteRecordsPartitionResult21 :=
  { PartitionIndex := upto k 0 y.PartitionIndex 0,
    LowWatermark := upto k 1 y.LowWatermark 0,
    ErrorCode := upto k 2 y.ErrorCode 0 }

/-- `r` is a beginning of `y`, and zeros. -/
def DeleteRecordsPartitionResult21.Part (r y : DeleteRecordsPartitionResult21) : Prop :=
  (∃ k, k < 3 ∧ r = y.first k)

/-- `DeleteRecordsPartitionResult21` with its receiver kept. -/
def DeleteRecordsPartitionResult21.keeps : KeptMsg DeleteRecordsPartitionResult21.type := { decode := DeleteRecordsPartitionResult21.decodeK, cut := DeleteRecordsPartitionResult21.cut, Part := DeleteRecordsPartitionResult21.Part }

theorem DeleteRecordsPartitionResult21.sameK (version : Int16) : KStep (DeleteRecordsPartitionResult21.decodeK version) (DeleteRecordsPartitionResult21.decode version) :=
  (KStep.field)
    |>.andThen (KStep.field)
    |>.andThen (KStep.field)
theorem DeleteRecordsPartitionResult21.cutsK (version : Int16) (t : DeleteRecordsPartitionResult21) (h : t.Fits version) :
    Cuts (DeleteRecordsPartitionResult21.decodeK version) 0 (DeleteRecordsPartitionResult21.wire version t) (DeleteRecordsPartitionResult21.ends version t 2) (DeleteRecordsPartitionResult21.cutAt version t 0) (DeleteRecordsPartitionResult21.cutAt version t 3) :=
  (.field (reads_int32 t.PartitionIndex) (fun _ => rfl) (fun _ => rfl) : Cuts _ 0 _ (DeleteRecordsPartitionResult21.ends version t 0) (DeleteRecordsPartitionResult21.cutAt version t 0) (DeleteRecordsPartitionResult21.cutAt version t 1))
    |>.andThen (.field (reads_int64 t.LowWatermark) (fun _ => rfl) (fun _ => rfl) : Cuts _ (DeleteRecordsPartitionResult21.ends version t 0) _ (DeleteRecordsPartitionResult21.ends version t 1) (DeleteRecordsPartitionResult21.cutAt version t 1) (DeleteRecordsPartitionResult21.cutAt version t 2))
    |>.andThen (.field (reads_int16 t.ErrorCode) (fun _ => rfl) (fun _ => rfl) : Cuts _ (DeleteRecordsPartitionResult21.ends version t 1) _ (DeleteRecordsPartitionResult21.ends version t 2) (DeleteRecordsPartitionResult21.cutAt version t 2) (DeleteRecordsPartitionResult21.cutAt version t 3))
theorem DeleteRecordsPartitionResult21.partsK (version : Int16) : Parts (DeleteRecordsPartitionResult21.decodeK version) (DeleteRecordsPartitionResult21.first 0) (DeleteRecordsPartitionResult21.first 3) (fun r y => (((r = DeleteRecordsPartitionResult21.first 0 y) ∨ (r = DeleteRecordsPartitionResult21.first 1 y)) ∨ (r = DeleteRecordsPartitionResult21.first 2 y))) :=
  (.field Longer.int32 (fun _ => rfl) (fun _ _ => rfl) (fun _ _ => rfl) (fun _ => rfl) : Parts (KDec.field Dec.int32 0 (fun t x => { t with PartitionIndex := x })) (DeleteRecordsPartitionResult21.first 0) (DeleteRecordsPartitionResult21.first 1) (fun r y => r = DeleteRecordsPartitionResult21.first 0 y))
    |>.andThen (.field Longer.int64 (fun _ => rfl) (fun _ _ => rfl) (fun _ _ => rfl) (fun _ => rfl) : Parts (KDec.field Dec.int64 0 (fun t x => { t with LowWatermark := x })) (DeleteRecordsPartitionResult21.first 1) (DeleteRecordsPartitionResult21.first 2) (fun r y => r = DeleteRecordsPartitionResult21.first 1 y))
    |>.andThen (.field Longer.int16 (fun _ => rfl) (fun _ _ => rfl) (fun _ _ => rfl) (fun _ => rfl) : Parts (KDec.field Dec.int16 0 (fun t x => { t with ErrorCode := x })) (DeleteRecordsPartitionResult21.first 2) (DeleteRecordsPartitionResult21.first 3) (fun r y => r = DeleteRecordsPartitionResult21.first 2 y))
theorem DeleteRecordsPartitionResult21.filled (version : Int16) : FilledStep 14 14 (DeleteRecordsPartitionResult21.decode version) :=
  ((FilledStep.field .int32)
    |>.andThen (FilledStep.field .int64)
    |>.andThen (FilledStep.field .int16)).mono (by decide) (by decide)
theorem DeleteRecordsPartitionResult21.part_of (r y : DeleteRecordsPartitionResult21) (h : (((r = DeleteRecordsPartitionResult21.first 0 y) ∨ (r = DeleteRecordsPartitionResult21.first 1 y)) ∨ (r = DeleteRecordsPartitionResult21.first 2 y))) : DeleteRecordsPartitionResult21.Part r y :=
  match h with
    | (.inl (.inl h)) => ⟨0, by decide, h⟩
    | (.inl (.inr h)) => ⟨1, by decide, h⟩
    | (.inr h) => ⟨2, by decide, h⟩
theorem DeleteRecordsPartitionResult21.keeps_holds : DeleteRecordsPartitionResult21.keeps.Holds DeleteRecordsPartitionResult21.layout :=
  KeptMsg.holds DeleteRecordsPartitionResult21.lawful DeleteRecordsPartitionResult21.sameK (stop := fun v t => DeleteRecordsPartitionResult21.ends v t 2) (c := fun v t => DeleteRecordsPartitionResult21.cutAt v t 0) (fun _ _ _ => rfl) DeleteRecordsPartitionResult21.cutsK (c0 := DeleteRecordsPartitionResult21.first 0) rfl DeleteRecordsPartitionResult21.partsK DeleteRecordsPartitionResult21.part_of DeleteRecordsPartitionResult21.filled (by decide) (by decide)

/-- message/messages.gen.go:6169-6189 `DeleteRecordsTopicResult21.Decode`, with the receiver kept -/
def DeleteRecordsTopicResult21.decodeK (version : Int16) : KDec DeleteRecordsTopicResult21 :=
    KDec.field Dec.string [] (fun t x => { t with Name := x }) ;|>
    KDec.fieldStructs (DeleteRecordsPartitionResult21.decodeK version {}) {} (fun t x => { t with Partitions := x })

/-- Where the fields of `DeleteRecordsTopicResult21` end. -/
def DeleteRecordsTopicResult21.ends (version : Int16) (t : DeleteRecordsTopicResult21) : Nat → Nat :=
  Cut.ends 0 [Wire.string t.Name,
    Wire.array (DeleteRecordsPartitionResult21.wire version) t.Partitions]

/-- What is left of `t` if only its first `n` bytes are there. -/
def DeleteRecordsTopicResult21.cut (version : Int16) (n : Nat) (t : DeleteRecordsTopicResult21) : DeleteRecordsTopicResult21 :=
  { Name := Cut.field n (t.ends version 0) t.Name [],
    Partitions := Cut.array n (t.ends version 0) (DeleteRecordsPartitionResult21.wire version) (fun x => x.seen version {}) {} t.Partitions }

/-- The same after the first `k` statements of `Decode`. -/
def DeleteRecordsTopicResult21.cutAt (version : Int16) (t : DeleteRecordsTopicResult21) (k n : Nat) : DeleteRecordsTopicResult21 :=
  { Name := upto k 0 (Cut.field n (t.ends version 0) t.Name []) [],
    Partitions := upto k 1 (Cut.array n (t.ends version 0) (DeleteRecordsPartitionResult21.wire version) (fun x => x.seen version {}) {} t.Partitions) none }

/-- The first `k` fields of `y`, and zeros. -/
def DeleteRecordsTopicResult21.first (k : Nat) (y : DeleteRecordsTopicResult21) : DeleteRecordsTopicResult21 :=
  { Name := upto k 0 y.Name [],
    Partitions := upto k 1 y.Partitions none }

/-- `r` is a beginning of `y`, and zeros. -/
def DeleteRecordsTopicResult21.Part (r y : DeleteRecordsTopicResult21) : Prop :=
  (∃ k, k < 2 ∧ r = y.first k) ∨
    Cut.begun {} (fun t => t.Partitions) (fun t x => { t with Partitions := x }) (DeleteRecordsTopicResult21.first 1) r y

/-- `DeleteRecordsTopicResult21` with its receiver kept. -/
def DeleteRecordsTopicResult21.keeps : KeptMsg DeleteRecordsTopicResult21.type := { decode := DeleteRecordsTopicResult21.decodeK, cut := DeleteRecordsTopicResult21.cut, Part := DeleteRecordsTopicResult21.Part }

theorem DeleteRecordsTopicResult21.sameK (version : Int16) : KStep (DeleteRecordsTopicResult21.decodeK version) (DeleteRecordsTopicResult21.decode version) :=
  (KStep.field)
    |>.andThen (KStep.structs (fun _ => rfl) (DeleteRecordsPartitionResult21.sameK version {}))
theorem DeleteRecordsTopicResult21.cutsK (version : Int16) (t : DeleteRecordsTopicResult21) (h : t.Fits version) :
    Cuts (DeleteRecordsTopicResult21.decodeK version) 0 (DeleteRecordsTopicResult21.wire version t) (DeleteRecordsTopicResult21.ends version t 1) (DeleteRecordsTopicResult21.cutAt version t 0) (DeleteRecordsTopicResult21.cutAt version t 2) :=
  (.field (reads_string h.Name) (fun _ => rfl) (fun _ => rfl) : Cuts _ 0 _ (DeleteRecordsTopicResult21.ends version t 0) (DeleteRecordsTopicResult21.cutAt version t 0) (DeleteRecordsTopicResult21.cutAt version t 1))
    |>.andThen (.structs (DeleteRecordsPartitionResult21.sameK version {}) (fun x hx => DeleteRecordsPartitionResult21.reads version x hx {}) h.Partitions (fun _ => rfl) (fun _ => rfl) : Cuts _ (DeleteRecordsTopicResult21.ends version t 0) _ (DeleteRecordsTopicResult21.ends version t 1) (DeleteRecordsTopicResult21.cutAt version t 1) (DeleteRecordsTopicResult21.cutAt version t 2))
theorem DeleteRecordsTopicResult21.partsK (version : Int16) : Parts (DeleteRecordsTopicResult21.decodeK version) (DeleteRecordsTopicResult21.first 0) (DeleteRecordsTopicResult21.first 2) (fun r y => ((r = DeleteRecordsTopicResult21.first 0 y) ∨ (r = DeleteRecordsTopicResult21.first 1 y ∨ Cut.begun {} (fun t => t.Partitions) (fun t x => { t with Partitions := x }) (DeleteRecordsTopicResult21.first 1) r y))) :=
  (.field Longer.string (fun _ => rfl) (fun _ _ => rfl) (fun _ _ => rfl) (fun _ => rfl) : Parts (KDec.field Dec.string [] (fun t x => { t with Name := x })) (DeleteRecordsTopicResult21.first 0) (DeleteRecordsTopicResult21.first 1) (fun r y => r = DeleteRecordsTopicResult21.first 0 y))
    |>.andThen (.structs (get := fun (t : DeleteRecordsTopicResult21) => t.Partitions) ((DeleteRecordsPartitionResult21.partsK version).longer {}) (fun _ => rfl) (fun _ => rfl) (fun _ _ => rfl) (fun _ _ => rfl) (fun _ _ => rfl) (fun _ => rfl) (fun _ => rfl) : Parts (KDec.fieldStructs (DeleteRecordsPartitionResult21.decodeK version {}) {} (fun t x => { t with Partitions := x })) (DeleteRecordsTopicResult21.first 1) (DeleteRecordsTopicResult21.first 2) (fun r y => r = DeleteRecordsTopicResult21.first 1 y ∨ Cut.begun {} (fun t => t.Partitions) (fun t x => { t with Partitions := x }) (DeleteRecordsTopicResult21.first 1) r y))
theorem DeleteRecordsTopicResult21.filled (version : Int16) : FilledStep 6 30064771090 (DeleteRecordsTopicResult21.decode version) :=
  ((FilledStep.field .string)
    |>.andThen (FilledStep.structs (DeleteRecordsPartitionResult21.filled version {}))).mono (by decide) (by decide)
theorem DeleteRecordsTopicResult21.part_of (r y : DeleteRecordsTopicResult21) (h : ((r = DeleteRecordsTopicResult21.first 0 y) ∨ (r = DeleteRecordsTopicResult21.first 1 y ∨ Cut.begun {} (fun t => t.Partitions) (fun t x => { t with Partitions := x }) (DeleteRecordsTopicResult21.first 1) r y))) : DeleteRecordsTopicResult21.Part r y :=
  match h with
    | (.inl h) => .inl ⟨0, by decide, h⟩
    | (.inr (.inl h)) => .inl ⟨1, by decide, h⟩
    | (.inr (.inr h)) => (.inr h)
theorem DeleteRecordsTopicResult21.keeps_holds : DeleteRecordsTopicResult21.keeps.Holds DeleteRecordsTopicResult21.layout :=
  KeptMsg.holds DeleteRecordsTopicResult21.lawful DeleteRecordsTopicResult21.sameK (stop := fun v t => DeleteRecordsTopicResult21.ends v t 1) (c := fun v t => DeleteRecordsTopicResult21.cutAt v t 0) (fun _ _ _ => rfl) DeleteRecordsTopicResult21.cutsK (c0 := DeleteRecordsTopicResult21.first 0) rfl DeleteRecordsTopicResult21.partsK DeleteRecordsTopicResult21.part_of DeleteRecordsTopicResult21.filled (by decide) (by decide)

/-- message/messages.gen.go:6119-6139 `DeleteRecordsResponse.Decode`, with the receiver kept -/
def DeleteRecordsResponse.decodeK (version : Int16) : KDec DeleteRecordsResponse :=
    KDec.field Dec.int32 0 (fun t x => { t with ThrottleTimeMs := x }) ;|>
    KDec.fieldStructs (DeleteRecordsTopicResult21.decodeK version {}) {} (fun t x => { t with Topics := x })

/-- Where the fields of `DeleteRecordsResponse` end. -/
def DeleteRecordsResponse.ends (version : Int16) (t : DeleteRecordsResponse) : Nat → Nat :=
  Cut.ends 0 [Wire.int32 t.ThrottleTimeMs,
    Wire.array (DeleteRecordsTopicResult21.wire version) t.Topics]

/-- What is left of `t` if only its first `n` bytes are there. -/
def DeleteRecordsResponse.cut (version : Int16) (n : Nat) (t : DeleteRecordsResponse) : DeleteRecordsResponse :=
  { ThrottleTimeMs := Cut.field n (t.ends version 0) t.ThrottleTimeMs 0,
    Topics := Cut.array n (t.ends version 0) (DeleteRecordsTopicResult21.wire version) (fun x => x.seen version {}) {} t.Topics }

/-- The same after the first `k` statements of `Decode`. -/
def DeleteRecordsResponse.cutAt (version : Int16) (t : DeleteRecordsResponse) (k n : Nat) : DeleteRecordsResponse :=
  { ThrottleTimeMs := upto k 0 (Cut.field n (t.ends version 0) t.ThrottleTimeMs 0) 0,
    Topics := upto k 1 (Cut.array n (t.ends version 0) (DeleteRecordsTopicResult21.wire version) (fun x => x.seen version {}) {} t.Topics) none }

/-- The first `k` fields of `y`, and zeros. -/
def DeleteRecordsResponse.first (k : Nat) (y : DeleteRecordsResponse) : DeleteRecordsResponse :=
  { ThrottleTimeMs := upto k 0 y.ThrottleTimeMs 0,
    Topics := upto k 1 y.Topics none }

/-- `r` is a beginning of `y`, and zeros. -/
def DeleteRecordsResponse.Part (r y : DeleteRecordsResponse) : Prop :=
  (∃ k, k < 2 ∧ r = y.first k) ∨
    Cut.begun {} (fun t => t.Topics) (fun t x => { t with Topics := x }) (DeleteRecordsResponse.first 1) r y

/-- `DeleteRecordsResponse` with its receiver kept. -/
def DeleteRecordsResponse.keeps : KeptMsg DeleteRecordsResponse.type := { decode := DeleteRecordsResponse.decodeK, cut := DeleteRecordsResponse.cut, Part := DeleteRecordsResponse.Part }

theorem DeleteRecordsResponse.sameK (version : Int16) : KStep (DeleteRecordsResponse.decodeK version) (DeleteRecordsResponse.decode version) :=
  (KStep.field)
    |>.andThen (KStep.structs (fun _ => rfl) (DeleteRecordsTopicResult21.sameK version {}))
theorem DeleteRecordsResponse.cutsK (version : Int16) (t : DeleteRecordsResponse) (h : t.Fits version) :
    Cuts (DeleteRecordsResponse.decodeK version) 0 (DeleteRecordsResponse.wire version t) (DeleteRecordsResponse.ends version t 1) (DeleteRecordsResponse.cutAt version t 0) (DeleteRecordsResponse.cutAt version t 2) :=
  (.field (reads_int32 t.ThrottleTimeMs) (fun _ => rfl) (fun _ => rfl) : Cuts _ 0 _ (DeleteRecordsResponse.ends version t 0) (DeleteRecordsResponse.cutAt version t 0) (DeleteRecordsResponse.cutAt version t 1))
    |>.andThen (.structs (DeleteRecordsTopicResult21.sameK version {}) (fun x hx => DeleteRecordsTopicResult21.reads version x hx {}) h.Topics (fun _ => rfl) (fun _ => rfl) : Cuts _ (DeleteRecordsResponse.ends version t 0) _ (DeleteRecordsResponse.ends version t 1) (DeleteRecordsResponse.cutAt version t 1) (DeleteRecordsResponse.cutAt version t 2))
theorem DeleteRecordsResponse.partsK (version : Int16) : Parts (DeleteRecordsResponse.decodeK version) (DeleteRecordsResponse.first 0) (DeleteRecordsResponse.first 2) (fun r y => ((r = DeleteRecordsResponse.first 0 y) ∨ (r = DeleteRecordsResponse.first 1 y ∨ Cut.begun {} (fun t => t.Topics) (fun t x => { t with Topics := x }) (DeleteRecordsResponse.first 1) r y))) :=
  (.field Longer.int32 (fun _ => rfl) (fun _ _ => rfl) (fun _ _ => rfl) (fun _ => rfl) : Parts (KDec.field Dec.int32 0 (fun t x => { t with ThrottleTimeMs := x })) (DeleteRecordsResponse.first 0) (DeleteRecordsResponse.first 1) (fun r y => r = DeleteRecordsResponse.first 0 y))
    |>.andThen (.structs (get := fun (t : DeleteRecordsResponse) => t.Topics) ((DeleteRecordsTopicResult21.partsK version).longer {}) (fun _ => rfl) (fun _ => rfl) (fun _ _ => rfl) (fun _ _ => rfl) (fun _ _ => rfl) (fun _ => rfl) (fun _ => rfl) : Parts (KDec.fieldStructs (DeleteRecordsTopicResult21.decodeK version {}) {} (fun t x => { t with Topics := x })) (DeleteRecordsResponse.first 1) (DeleteRecordsResponse.first 2) (fun r y => r = DeleteRecordsResponse.first 1 y ∨ Cut.begun {} (fun t => t.Topics) (fun t x => { t with Topics := x }) (DeleteRecordsResponse.first 1) r y))
theorem DeleteRecordsResponse.filled (version : Int16) : FilledStep 8 42949672982 (DeleteRecordsResponse.decode version) :=
  ((FilledStep.field .int32)
    |>.andThen (FilledStep.structs (DeleteRecordsTopicResult21.filled version {}))).mono (by decide) (by decide)
theorem DeleteRecordsResponse.part_of (r y : DeleteRecordsResponse) (h : ((r = DeleteRecordsResponse.first 0 y) ∨ (r = DeleteRecordsResponse.first 1 y ∨ Cut.begun {} (fun t => t.Topics) (fun t x => { t with Topics := x }) (DeleteRecordsResponse.first 1) r y))) : DeleteRecordsResponse.Part r y :=
  match h with
    | (.inl h) => .inl ⟨0, by decide, h⟩
    | (.inr (.inl h)) => .inl ⟨1, by decide, h⟩
    | (.inr (.inr h)) => (.inr h)
theorem DeleteRecordsResponse.keeps_holds : DeleteRecordsResponse.keeps.Holds DeleteRecordsResponse.layout :=
  KeptMsg.holds DeleteRecordsResponse.lawful DeleteRecordsResponse.sameK (stop := fun v t => DeleteRecordsResponse.ends v t 1) (c := fun v t => DeleteRecordsResponse.cutAt v t 0) (fun _ _ _ => rfl) DeleteRecordsResponse.cutsK (c0 := DeleteRecordsResponse.first 0) rfl DeleteRecordsResponse.partsK DeleteRecordsResponse.part_of DeleteRecordsResponse.filled (by decide) (by decide)

/-- The structures of the DeleteRecords messages. -/
def keptDeleteRecords : List (Σ (M : MsgType) (_ : Layout M), KeptMsg M) :=
  [⟨DeleteRecordsRequest.type, DeleteRecordsRequest.layout, DeleteRecordsRequest.keeps⟩,
   ⟨DeleteRecordsTopic21.type, DeleteRecordsTopic21.layout, DeleteRecordsTopic21.keeps⟩,
   ⟨DeleteRecordsPartition21.type, DeleteRecordsPartition21.layout, DeleteRecordsPartition21.keeps⟩,
   ⟨DeleteRecordsResponse.type, DeleteRecordsResponse.layout, DeleteRecordsResponse.keeps⟩,
   ⟨DeleteRecordsTopicResult21.type, DeleteRecordsTopicResult21.layout, DeleteRecordsTopicResult21.keeps⟩,
   ⟨DeleteRecordsPartitionResult21.type, DeleteRecordsPartitionResult21.layout, DeleteRecordsPartitionResult21.keeps⟩]
theorem keptDeleteRecords_holds : ∀ p ∈ keptDeleteRecords, p.2.2.Holds p.2.1 := by
  unfold keptDeleteRecords
  simp only [List.forall_mem_cons]
  exact ⟨DeleteRecordsRequest.keeps_holds, DeleteRecordsTopic21.keeps_holds, DeleteRecordsPartition21.keeps_holds, DeleteRecordsResponse.keeps_holds, DeleteRecordsTopicResult21.keeps_holds, DeleteRecordsPartitionResult21.keeps_holds, fun _ h => absurd h (by simp)⟩

end Kafka.Msg
