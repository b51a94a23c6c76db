import Verif.Message.KeptLemmas
import Verif.Gen.Proof.WriteTxnMarkers
/-!
Generated by tools/gen_messages.py: what is in the WriteTxnMarkers messages after an error.
-/
set_option linter.unusedVariables false
namespace Kafka.Msg

/-- message/messages.gen.go:7157-7168 `WritableTxnMarkerTopic27.Decode`, with the receiver kept -/
def WritableTxnMarkerTopic27.decodeK (_version : Int16) : KDec WritableTxnMarkerTopic27 :=
    KDec.field Dec.string [] (fun t x => { t with Name := x }) ;|>
    KDec.field Dec.int32Array none (fun t x => { t with PartitionIndexes := x })

/-- Where the fields of `WritableTxnMarkerTopic27` end. -/
def WritableTxnMarkerTopic27.ends (_version : Int16) (t : WritableTxnMarkerTopic27) : Nat → Nat :=
  Cut.ends 0 [Wire.string t.Name,
    Wire.int32Array t.PartitionIndexes]

/-- What is left of `t` if only its first `n` bytes are there. -/
def WritableTxnMarkerTopic27.cut (version : Int16) (n : Nat) (t : WritableTxnMarkerTopic27) : WritableTxnMarkerTopic27 :=
  { Name := Cut.field n (t.ends version 0) t.Name [],
    PartitionIndexes := Cut.field n (t.ends version 1) t.PartitionIndexes none }

/-- The same after the first `k` statements of `Decode`. -/
def WritableTxnMarkerTopic27.cutAt (version : Int16) (t : WritableTxnMarkerTopic27) (k n : Nat) : WritableTxnMarkerTopic27 :=
  { Name := upto k 0 (Cut.field n (t.ends version 0) t.Name []) [],
    PartitionIndexes := upto k 1 (Cut.field n (t.ends version 1) t.PartitionIndexes none) none }

/-- The first `k` fields of `y`, and zeros. -/
def WritableTxnMarkerTopic27.first (k : Nat) (y : WritableTxnMarkerTopic27) : WritableTxnMarkerTopic27 :=
  { Name := upto k 0 y.Name [],
    PartitionIndexes := upto k 1 y.PartitionIndexes none }

/-- `r` is a beginning of `y`, and zeros. -/
def WritableTxnMarkerTopic27.Part (r y : WritableTxnMarkerTopic27) : Prop :=
  (∃ k, k < 2 ∧ r = y.first k)

/-- `WritableTxnMarkerTopic27` with its receiver kept. -/
def WritableTxnMarkerTopic27.keeps : KeptMsg WritableTxnMarkerTopic27.type := { decode := WritableTxnMarkerTopic27.decodeK, cut := WritableTxnMarkerTopic27.cut, Part := WritableTxnMarkerTopic27.Part }

theorem WritableTxnMarkerTopic27.sameK (version : Int16) : KStep (WritableTxnMarkerTopic27.decodeK version) (WritableTxnMarkerTopic27.decode version) :=
  (KStep.field)
    |>.andThen (KStep.field)
theorem WritableTxnMarkerTopic27.cutsK (version : Int16) (t : WritableTxnMarkerTopic27) (h : t.Fits version) :
    Cuts (WritableTxnMarkerTopic27.decodeK version) 0 (WritableTxnMarkerTopic27.wire version t) (WritableTxnMarkerTopic27.ends version t 1) (WritableTxnMarkerTopic27.cutAt version t 0) (WritableTxnMarkerTopic27.cutAt version t 2) :=
  (.field (reads_string h.Name) (fun _ => rfl) (fun _ => rfl) : Cuts _ 0 _ (WritableTxnMarkerTopic27.ends version t 0) (WritableTxnMarkerTopic27.cutAt version t 0) (WritableTxnMarkerTopic27.cutAt version t 1))
    |>.andThen (.field (reads_int32Array h.PartitionIndexes) (fun _ => rfl) (fun _ => rfl) : Cuts _ (WritableTxnMarkerTopic27.ends version t 0) _ (WritableTxnMarkerTopic27.ends version t 1) (WritableTxnMarkerTopic27.cutAt version t 1) (WritableTxnMarkerTopic27.cutAt version t 2))
theorem WritableTxnMarkerTopic27.partsK (version : Int16) : Parts (WritableTxnMarkerTopic27.decodeK version) (WritableTxnMarkerTopic27.first 0) (WritableTxnMarkerTopic27.first 2) (fun r y => ((r = WritableTxnMarkerTopic27.first 0 y) ∨ (r = WritableTxnMarkerTopic27.first 1 y))) :=
  (.field Longer.string (fun _ => rfl) (fun _ _ => rfl) (fun _ _ => rfl) (fun _ => rfl) : Parts (KDec.field Dec.string [] (fun t x => { t with Name := x })) (WritableTxnMarkerTopic27.first 0) (WritableTxnMarkerTopic27.first 1) (fun r y => r = WritableTxnMarkerTopic27.first 0 y))
    |>.andThen (.field Longer.int32Array (fun _ => rfl) (fun _ _ => rfl) (fun _ _ => rfl) (fun _ => rfl) : Parts (KDec.field Dec.int32Array none (fun t x => { t with PartitionIndexes := x })) (WritableTxnMarkerTopic27.first 1) (WritableTxnMarkerTopic27.first 2) (fun r y => r = WritableTxnMarkerTopic27.first 1 y))
theorem WritableTxnMarkerTopic27.filled (version : Int16) : FilledStep 6 8589934600 (WritableTxnMarkerTopic27.decode version) :=
  ((FilledStep.field .string)
    |>.andThen (FilledStep.field .int32Array)).mono (by decide) (by decide)
theorem WritableTxnMarkerTopic27.part_of (r y : WritableTxnMarkerTopic27) (h : ((r = WritableTxnMarkerTopic27.first 0 y) ∨ (r = WritableTxnMarkerTopic27.first 1 y))) : WritableTxnMarkerTopic27.Part r y :=
  match h with
    | (.inl h) => ⟨0, by decide, h⟩
    | (.inr h) => ⟨1, by decide, h⟩
theorem WritableTxnMarkerTopic27.keeps_holds : WritableTxnMarkerTopic27.keeps.Holds WritableTxnMarkerTopic27.layout :=
  KeptMsg.holds WritableTxnMarkerTopic27.lawful WritableTxnMarkerTopic27.sameK (stop := fun v t => WritableTxnMarkerTopic27.ends v t 1) (c := fun v t => WritableTxnMarkerTopic27.cutAt v t 0) (fun _ _ _ => rfl) WritableTxnMarkerTopic27.cutsK (c0 := WritableTxnMarkerTopic27.first 0) rfl WritableTxnMarkerTopic27.partsK WritableTxnMarkerTopic27.part_of WritableTxnMarkerTopic27.filled (by decide) (by decide)

/-- message/messages.gen.go:7103-7135 `WritableTxnMarker27.Decode`, with the receiver kept -/
def WritableTxnMarker27.decodeK (version : Int16) : KDec WritableTxnMarker27 :=
    KDec.field Dec.int64 0 (fun t x => { t with ProducerId := x }) ;|>
    KDec.field Dec.int16 0 (fun t x => { t with ProducerEpoch := x }) ;|>
    KDec.field Dec.bool false (fun t x => { t with TransactionResult := x }) ;|>
    KDec.fieldStructs (WritableTxnMarkerTopic27.decodeK version {}) {} (fun t x => { t with Topics := x }) ;|>
    KDec.field Dec.int32 0 (fun t x => { t with CoordinatorEpoch := x })

/-- Where the fields of `WritableTxnMarker27` end. -/
def WritableTxnMarker27.ends (version : Int16) (t : WritableTxnMarker27) : Nat → Nat :=
  Cut.ends 0 [Wire.int64 t.ProducerId,
    Wire.int16 t.ProducerEpoch,
    Wire.bool t.TransactionResult,
    Wire.array (WritableTxnMarkerTopic27.wire version) t.Topics,
    Wire.int32 t.CoordinatorEpoch]

/-- What is left of `t` if only its first `n` bytes are there. -/
def WritableTxnMarker27.cut (version : Int16) (n : Nat) (t : WritableTxnMarker27) : WritableTxnMarker27 :=
  { ProducerId := Cut.field n (t.ends version 0) t.ProducerId 0,
    ProducerEpoch := Cut.field n (t.ends version 1) t.ProducerEpoch 0,
    TransactionResult := Cut.field n (t.ends version 2) t.TransactionResult false,
    Topics := Cut.array n (t.ends version 2) (WritableTxnMarkerTopic27.wire version) (fun x => x.seen version {}) {} t.Topics,
    CoordinatorEpoch := Cut.field n (t.ends version 4) t.CoordinatorEpoch 0 }

/-- The same after the first `k` statements of `Decode`. -/
def WritableTxnMarker27.cutAt (version : Int16) (t : WritableTxnMarker27) (k n : Nat) : WritableTxnMarker27 :=
  { ProducerId := upto k 0 (Cut.field n (t.ends version 0) t.ProducerId 0) 0,
    ProducerEpoch := upto k 1 (Cut.field n (t.ends version 1) t.ProducerEpoch 0) 0,
    TransactionResult := upto k 2 (Cut.field n (t.ends version 2) t.TransactionResult false) false,
    Topics := upto k 3 (Cut.array n (t.ends version 2) (WritableTxnMarkerTopic27.wire version) (fun x => x.seen version {}) {} t.Topics) none,
    CoordinatorEpoch := upto k 4 (Cut.field n (t.ends version 4) t.CoordinatorEpoch 0) 0 }

/-- The first `k` fields of `y`, and zeros. -/
def WritableTxnMarker27.first (k : Nat) (y : WritableTxnMarker27) : WritableTxnMarker27 :=
  { ProducerId := upto k 0 y.ProducerId 0,
    ProducerEpoch := upto k 1 y.ProducerEpoch 0,
    TransactionResult := upto k 2 y.TransactionResult false,
    Topics := upto k 3 y.Topics none,
    CoordinatorEpoch := upto k 4 y.CoordinatorEpoch 0 }

/-- `r` is a beginning of `y`, and zeros. -/
def WritableTxnMarker27.Part (r y : WritableTxnMarker27) : Prop :=
  (∃ k, k < 5 ∧ r = y.first k) ∨
    Cut.begun {} (fun t => t.Topics) (fun t x => { t with Topics := x }) (WritableTxnMarker27.first 3) r y

/-- `WritableTxnMarker27` with its receiver kept. -/
def WritableTxnMarker27.keeps : KeptMsg WritableTxnMarker27.type := { decode := WritableTxnMarker27.decodeK, cut := WritableTxnMarker27.cut, Part := WritableTxnMarker27.Part }

theorem WritableTxnMarker27.sameK (version : Int16) : KStep (WritableTxnMarker27.decodeK version) (WritableTxnMarker27.decode version) :=
  (KStep.field)
    |>.andThen (KStep.field)
    |>.andThen (KStep.field)
    |>.andThen (KStep.structs (fun _ => rfl) (WritableTxnMarkerTopic27.sameK version {}))
    |>.andThen (KStep.field)
theorem WritableTxnMarker27.cutsK (version : Int16) (t : WritableTxnMarker27) (h : t.Fits version) :
    Cuts (WritableTxnMarker27.decodeK version) 0 (WritableTxnMarker27.wire version t) (WritableTxnMarker27.ends version t 4) (WritableTxnMarker27.cutAt version t 0) (WritableTxnMarker27.cutAt version t 5) :=
  (.field (reads_int64 t.ProducerId) (fun _ => rfl) (fun _ => rfl) : Cuts _ 0 _ (WritableTxnMarker27.ends version t 0) (WritableTxnMarker27.cutAt version t 0) (WritableTxnMarker27.cutAt version t 1))
    |>.andThen (.field (reads_int16 t.ProducerEpoch) (fun _ => rfl) (fun _ => rfl) : Cuts _ (WritableTxnMarker27.ends version t 0) _ (WritableTxnMarker27.ends version t 1) (WritableTxnMarker27.cutAt version t 1) (WritableTxnMarker27.cutAt version t 2))
    |>.andThen (.field (reads_bool t.TransactionResult) (fun _ => rfl) (fun _ => rfl) : Cuts _ (WritableTxnMarker27.ends version t 1) _ (WritableTxnMarker27.ends version t 2) (WritableTxnMarker27.cutAt version t 2) (WritableTxnMarker27.cutAt version t 3))
    |>.andThen (.structs (WritableTxnMarkerTopic27.sameK version {}) (fun x hx => WritableTxnMarkerTopic27.reads version x hx {}) h.Topics (fun _ => rfl) (fun _ => rfl) : Cuts _ (WritableTxnMarker27.ends version t 2) _ (WritableTxnMarker27.ends version t 3) (WritableTxnMarker27.cutAt version t 3) (WritableTxnMarker27.cutAt version t 4))
    |>.andThen (.field (reads_int32 t.CoordinatorEpoch) (fun _ => rfl) (fun _ => rfl) : Cuts _ (WritableTxnMarker27.ends version t 3) _ (WritableTxnMarker27.ends version t 4) (WritableTxnMarker27.cutAt version t 4) (WritableTxnMarker27.cutAt version t 5))
theorem WritableTxnMarker27.partsK (version : Int16) : Parts (WritableTxnMarker27.decodeK version) (WritableTxnMarker27.first 0) (WritableTxnMarker27.first 5) (fun r y => (((((r = WritableTxnMarker27.first 0 y) ∨ (r = WritableTxnMarker27.first 1 y)) ∨ (r = WritableTxnMarker27.first 2 y)) ∨ (r = WritableTxnMarker27.first 3 y ∨ Cut.begun {} (fun t => t.Topics) (fun t x => { t with Topics := x }) (WritableTxnMarker27.first 3) r y)) ∨ (r = WritableTxnMarker27.first 4 y))) :=
  (.field Longer.int64 (fun _ => rfl) (fun _ _ => rfl) (fun _ _ => rfl) (fun _ => rfl) : Parts (KDec.field Dec.int64 0 (fun t x => { t with ProducerId := x })) (WritableTxnMarker27.first 0) (WritableTxnMarker27.first 1) (fun r y => r = WritableTxnMarker27.first 0 y))
    |>.andThen (.field Longer.int16 (fun _ => rfl) (fun _ _ => rfl) (fun _ _ => rfl) (fun _ => rfl) : Parts (KDec.field Dec.int16 0 (fun t x => { t with ProducerEpoch := x })) (WritableTxnMarker27.first 1) (WritableTxnMarker27.first 2) (fun r y => r = WritableTxnMarker27.first 1 y))
    |>.andThen (.field Longer.bool (fun _ => rfl) (fun _ _ => rfl) (fun _ _ => rfl) (fun _ => rfl) : Parts (KDec.field Dec.bool false (fun t x => { t with TransactionResult := x })) (WritableTxnMarker27.first 2) (WritableTxnMarker27.first 3) (fun r y => r = WritableTxnMarker27.first 2 y))
    |>.andThen (.structs (get := fun (t : WritableTxnMarker27) => t.Topics) ((WritableTxnMarkerTopic27.partsK version).longer {}) (fun _ => rfl) (fun _ => rfl) (fun _ _ => rfl) (fun _ _ => rfl) (fun _ _ => rfl) (fun _ => rfl) (fun _ => rfl) : Parts (KDec.fieldStructs (WritableTxnMarkerTopic27.decodeK version {}) {} (fun t x => { t with Topics := x })) (WritableTxnMarker27.first 3) (WritableTxnMarker27.first 4) (fun r y => r = WritableTxnMarker27.first 3 y ∨ Cut.begun {} (fun t => t.Topics) (fun t x => { t with Topics := x }) (WritableTxnMarker27.first 3) r y))
    |>.andThen (.field Longer.int32 (fun _ => rfl) (fun _ _ => rfl) (fun _ _ => rfl) (fun _ => rfl) : Parts (KDec.field Dec.int32 0 (fun t x => { t with CoordinatorEpoch := x })) (WritableTxnMarker27.first 4) (WritableTxnMarker27.first 5) (fun r y => r = WritableTxnMarker27.first 4 y))
theorem WritableTxnMarker27.filled (version : Int16) : FilledStep 19 21474836496 (WritableTxnMarker27.decode version) :=
  ((FilledStep.field .int64)
    |>.andThen (FilledStep.field .int16)
    |>.andThen (FilledStep.field .bool)
    |>.andThen (FilledStep.structs (WritableTxnMarkerTopic27.filled version {}))
    |>.andThen (FilledStep.field .int32)).mono (by decide) (by decide)
theorem WritableTxnMarker27.part_of (r y : WritableTxnMarker27) (h : (((((r = WritableTxnMarker27.first 0 y) ∨ (r = WritableTxnMarker27.first 1 y)) ∨ (r = WritableTxnMarker27.first 2 y)) ∨ (r = WritableTxnMarker27.first 3 y ∨ Cut.begun {} (fun t => t.Topics) (fun t x => { t with Topics := x }) (WritableTxnMarker27.first 3) r y)) ∨ (r = WritableTxnMarker27.first 4 y))) : WritableTxnMarker27.Part r y :=
  match h with
    | (.inl (.inl (.inl (.inl h)))) => .inl ⟨0, by decide, h⟩
    | (.inl (.inl (.inl (.inr h)))) => .inl ⟨1, by decide, h⟩
    | (.inl (.inl (.inr h))) => .inl ⟨2, by decide, h⟩
    | (.inl (.inr (.inl h))) => .inl ⟨3, by decide, h⟩
    | (.inl (.inr (.inr h))) => (.inr h)
    | (.inr h) => .inl ⟨4, by decide, h⟩
theorem WritableTxnMarker27.keeps_holds : WritableTxnMarker27.keeps.Holds WritableTxnMarker27.layout :=
  KeptMsg.holds WritableTxnMarker27.lawful WritableTxnMarker27.sameK (stop := fun v t => WritableTxnMarker27.ends v t 4) (c := fun v t => WritableTxnMarker27.cutAt v t 0) (fun _ _ _ => rfl) WritableTxnMarker27.cutsK (c0 := WritableTxnMarker27.first 0) rfl WritableTxnMarker27.partsK WritableTxnMarker27.part_of WritableTxnMarker27.filled (by decide) (by decide)

/-- message/messages.gen.go:7048-7064 `WriteTxnMarkersRequest.Decode`, with the receiver kept -/
def WriteTxnMarkersRequest.decodeK (version : Int16) : KDec WriteTxnMarkersRequest :=
    KDec.fieldStructs (WritableTxnMarker27.decodeK version {}) {} (fun t x => { t with Markers := x })

/-- Where the fields of `WriteTxnMarkersRequest` end. -/
def WriteTxnMarkersRequest.ends (version : Int16) (t : WriteTxnMarkersRequest) : Nat → Nat :=
  Cut.ends 0 [Wire.array (WritableTxnMarker27.wire version) t.Markers]

/-- What is left of `t` if only its first `n` bytes are there. -/
def WriteTxnMarkersRequest.cut (version : Int16) (n : Nat) (t : WriteTxnMarkersRequest) : WriteTxnMarkersRequest :=
  { Markers := Cut.array n 0 (WritableTxnMarker27.wire version) (fun x => x.seen version {}) {} t.Markers }

/-- The same after the first `k` statements of `Decode`. -/
def WriteTxnMarkersRequest.cutAt (version : Int16) (t : WriteTxnMarkersRequest) (k n : Nat) : WriteTxnMarkersRequest :=
  { Markers := upto k 0 (Cut.array n 0 (WritableTxnMarker27.wire version) (fun x => x.seen version {}) {} t.Markers) none }

/-- The first `k` fields of `y`, and zeros. -/
def WriteTxnMarkersRequest.first (k : Nat) (y : WriteTxnMarkersRequest) : WriteTxnMarkersRequest :=
  { Markers := upto k 0 y.Markers none }

/-- `r` is a beginning of `y`, and zeros. -/
def WriteTxnMarkersRequest.Part (r y : WriteTxnMarkersRequest) : Prop :=
  (∃ k, k < 1 ∧ r = y.first k) ∨
    Cut.begun {} (fun t => t.Markers) (fun t x => { t with Markers := x }) (WriteTxnMarkersRequest.first 0) r y

/-- `WriteTxnMarkersRequest` with its receiver kept. -/
def WriteTxnMarkersRequest.keeps : KeptMsg WriteTxnMarkersRequest.type := { decode := WriteTxnMarkersRequest.decodeK, cut := WriteTxnMarkersRequest.cut, Part := WriteTxnMarkersRequest.Part }

theorem WriteTxnMarkersRequest.sameK (version : Int16) : KStep (WriteTxnMarkersRequest.decodeK version) (WriteTxnMarkersRequest.decode version) :=
  KStep.structs (fun _ => rfl) (WritableTxnMarker27.sameK version {})
theorem WriteTxnMarkersRequest.cutsK (version : Int16) (t : WriteTxnMarkersRequest) (h : t.Fits version) :
    Cuts (WriteTxnMarkersRequest.decodeK version) 0 (WriteTxnMarkersRequest.wire version t) (WriteTxnMarkersRequest.ends version t 0) (WriteTxnMarkersRequest.cutAt version t 0) (WriteTxnMarkersRequest.cutAt version t 1) :=
  (.structs (WritableTxnMarker27.sameK version {}) (fun x hx => WritableTxnMarker27.reads version x hx {}) h.Markers (fun _ => rfl) (fun _ => rfl) : Cuts _ 0 _ (WriteTxnMarkersRequest.ends version t 0) (WriteTxnMarkersRequest.cutAt version t 0) (WriteTxnMarkersRequest.cutAt version t 1))
theorem WriteTxnMarkersRequest.partsK (version : Int16) : Parts (WriteTxnMarkersRequest.decodeK version) (WriteTxnMarkersRequest.first 0) (WriteTxnMarkersRequest.first 1) (fun r y => (r = WriteTxnMarkersRequest.first 0 y ∨ Cut.begun {} (fun t => t.Markers) (fun t x => { t with Markers := x }) (WriteTxnMarkersRequest.first 0) r y)) :=
  (.structs (get := fun (t : WriteTxnMarkersRequest) => t.Markers) ((WritableTxnMarker27.partsK version).longer {}) (fun _ => rfl) (fun _ => rfl) (fun _ _ => rfl) (fun _ _ => rfl) (fun _ _ => rfl) (fun _ => rfl) (fun _ => rfl) : Parts (KDec.fieldStructs (WritableTxnMarker27.decodeK version {}) {} (fun t x => { t with Markers := x })) (WriteTxnMarkersRequest.first 0) (WriteTxnMarkersRequest.first 1) (fun r y => r = WriteTxnMarkersRequest.first 0 y ∨ Cut.begun {} (fun t => t.Markers) (fun t x => { t with Markers := x }) (WriteTxnMarkersRequest.first 0) r y))
theorem WriteTxnMarkersRequest.filled (version : Int16) : FilledStep 4 62277025812 (WriteTxnMarkersRequest.decode version) :=
  (FilledStep.structs (WritableTxnMarker27.filled version {})).mono (by decide) (by decide)
theorem WriteTxnMarkersRequest.part_of (r y : WriteTxnMarkersRequest) (h : (r = WriteTxnMarkersRequest.first 0 y ∨ Cut.begun {} (fun t => t.Markers) (fun t x => { t with Markers := x }) (WriteTxnMarkersRequest.first 0) r y)) : WriteTxnMarkersRequest.Part r y :=
  match h with
    | (.inl h) => .inl ⟨0, by decide, h⟩
    | (.inr h) => (.inr h)
theorem WriteTxnMarkersRequest.keeps_holds : WriteTxnMarkersRequest.keeps.Holds WriteTxnMarkersRequest.layout :=
  KeptMsg.holds WriteTxnMarkersRequest.lawful WriteTxnMarkersRequest.sameK (stop := fun v t => WriteTxnMarkersRequest.ends v t 0) (c := fun v t => WriteTxnMarkersRequest.cutAt v t 0) (fun _ _ _ => rfl) WriteTxnMarkersRequest.cutsK (c0 := WriteTxnMarkersRequest.first 0) rfl WriteTxnMarkersRequest.partsK WriteTxnMarkersRequest.part_of WriteTxnMarkersRequest.filled (by decide) (by decide)

/-- message/messages.gen.go:7334-7345 `WritableTxnMarkerPartitionResult27.Decode`, with the receiver kept -/
def WritableTxnMarkerPartitionResult27.decodeK (_version : Int16) : KDec WritableTxnMarkerPartitionResult27 :=
    KDec.field Dec.int32 0 (fun t x => { t with PartitionIndex := x }) ;|>
    KDec.field Dec.int16 0 (fun t x => { t with ErrorCode := x })

/-- Where the fields of `WritableTxnMarkerPartitionResult27` end. -/
def WritableTxnMarkerPartitionResult27.ends (_version : Int16) (t : WritableTxnMarkerPartitionResult27) : Nat → Nat :=
  Cut.ends 0 [Wire.int32 t.PartitionIndex,
    Wire.int16 t.ErrorCode]

/-- What is left of `t` if only its first `n` bytes are there. -/
def WritableTxnMarkerPartitionResult27.cut (version : Int16) (n : Nat) (t : WritableTxnMarkerPartitionResult27) : WritableTxnMarkerPartitionResult27 :=
  { PartitionIndex := Cut.field n (t.ends version 0) t.PartitionIndex 0,
    ErrorCode := Cut.field n (t.ends version 1) t.ErrorCode 0 }

/-- The same after the first `k` statements of `Decode`. -/
def WritableTxnMarkerPartitionResult27.cutAt (version : Int16) (t : WritableTxnMarkerPartitionResult27) (k n : Nat) : WritableTxnMarkerPartitionResult27 :=
  { PartitionIndex := upto k 0 (Cut.field n (t.ends version 0) t.PartitionIndex 0) 0,
    ErrorCode := upto k 1 (Cut.field n (t.ends version 1) t.ErrorCode 0) 0 }

/-- The first `k` fields of `y`, and zeros. -/
def WritableTxnMarkerPartitionResult27.first (k : Nat) (y : WritableTxnMarkerPartitionResult27) : WritableTxnMarkerPartitionResult27 :=
  { PartitionIndex := upto k 0 y.PartitionIndex 0,
    ErrorCode := upto k 1 y.ErrorCode 0 }

/-- `r` is a beginning of `y`, and zeros. -/
def WritableTxnMarkerPartitionResult27.Part (r y : WritableTxnMarkerPartitionResult27) : Prop :=
  (∃ k, k < 2 ∧ r = y.first k)

/-- `WritableTxnMarkerPartitionResult27` with its receiver kept. -/
def WritableTxnMarkerPartitionResult27.keeps : KeptMsg WritableTxnMarkerPartitionResult27.type := { decode := WritableTxnMarkerPartitionResult27.decodeK, cut := WritableTxnMarkerPartitionResult27.cut, Part := WritableTxnMarkerPartitionResult27.Part }

theorem WritableTxnMarkerPartitionResult27.sameK (version : Int16) : KStep (WritableTxnMarkerPartitionResult27.decodeK version) (WritableTxnMarkerPartitionResult27.decode version) :=
  (KStep.field)
    |>.andThen (KStep.field)
theorem WritableTxnMarkerPartitionResult27.cutsK (version : Int16) (t : WritableTxnMarkerPartitionResult27) (h : t.Fits version) :
    Cuts (WritableTxnMarkerPartitionResult27.decodeK version) 0 (WritableTxnMarkerPartitionResult27.wire version t) (WritableTxnMarkerPartitionResult27.ends version t 1) (WritableTxnMarkerPartitionResult27.cutAt version t 0) (WritableTxnMarkerPartitionResult27.cutAt version t 2) :=
  (.field (reads_int32 t.PartitionIndex) (fun _ => rfl) (fun _ => rfl) : Cuts _ 0 _ (WritableTxnMarkerPartitionResult27.ends version t 0) (WritableTxnMarkerPartitionResult27.cutAt version t 0) (WritableTxnMarkerPartitionResult27.cutAt version t 1))
    |>.andThen (.field (reads_int16 t.ErrorCode) (fun _ => rfl) (fun _ => rfl) : Cuts _ (WritableTxnMarkerPartitionResult27.ends version t 0) _ (WritableTxnMarkerPartitionResult27.ends version t 1) (WritableTxnMarkerPartitionResult27.cutAt version t 1) (WritableTxnMarkerPartitionResult27.cutAt version t 2))
theorem WritableTxnMarkerPartitionResult27.partsK (version : Int16) : Parts (WritableTxnMarkerPartitionResult27.decodeK version) (WritableTxnMarkerPartitionResult27.first 0) (WritableTxnMarkerPartitionResult27.first 2) (fun r y => ((r = WritableTxnMarkerPartitionResult27.first 0 y) ∨ (r = WritableTxnMarkerPartitionResult27.first 1 y))) :=
  (.field Longer.int32 (fun _ => rfl) (fun _ _ => rfl) (fun _ _ => rfl) (fun _ => rfl) : Parts (KDec.field Dec.int32 0 (fun t x => { t with PartitionIndex := x })) (WritableTxnMarkerPartitionResult27.first 0) (WritableTxnMarkerPartitionResult27.first 1) (fun r y => r = WritableTxnMarkerPartitionResult27.first 0 y))
    |>.andThen (.field Longer.int16 (fun _ => rfl) (fun _ _ => rfl) (fun _ _ => rfl) (fun _ => rfl) : Parts (KDec.field Dec.int16 0 (fun t x => { t with ErrorCode := x })) (WritableTxnMarkerPartitionResult27.first 1) (WritableTxnMarkerPartitionResult27.first 2) (fun r y => r = WritableTxnMarkerPartitionResult27.first 1 y))
theorem WritableTxnMarkerPartitionResult27.filled (version : Int16) : FilledStep 6 6 (WritableTxnMarkerPartitionResult27.decode version) :=
  ((FilledStep.field .int32)
    |>.andThen (FilledStep.field .int16)).mono (by decide) (by decide)
theorem WritableTxnMarkerPartitionResult27.part_of (r y : WritableTxnMarkerPartitionResult27) (h : ((r = WritableTxnMarkerPartitionResult27.first 0 y) ∨ (r = WritableTxnMarkerPartitionResult27.first 1 y))) : WritableTxnMarkerPartitionResult27.Part r y :=
  match h with
    | (.inl h) => ⟨0, by decide, h⟩
    | (.inr h) => ⟨1, by decide, h⟩
theorem WritableTxnMarkerPartitionResult27.keeps_holds : WritableTxnMarkerPartitionResult27.keeps.Holds WritableTxnMarkerPartitionResult27.layout :=
  KeptMsg.holds WritableTxnMarkerPartitionResult27.lawful WritableTxnMarkerPartitionResult27.sameK (stop := fun v t => WritableTxnMarkerPartitionResult27.ends v t 1) (c := fun v t => WritableTxnMarkerPartitionResult27.cutAt v t 0) (fun _ _ _ => rfl) WritableTxnMarkerPartitionResult27.cutsK (c0 := WritableTxnMarkerPartitionResult27.first 0) rfl WritableTxnMarkerPartitionResult27.partsK WritableTxnMarkerPartitionResult27.part_of WritableTxnMarkerPartitionResult27.filled (by decide) (by decide)

/-- message/messages.gen.go:7292-7312 `WritableTxnMarkerTopicResult27.Decode`, with the receiver kept -/
def WritableTxnMarkerTopicResult27.decodeK (version : Int16) : KDec WritableTxnMarkerTopicResult27 :=
    KDec.field Dec.string [] (fun t x => { t with Name := x }) ;|>
    KDec.fieldStructs (WritableTxnMarkerPartitionResult27.decodeK version {}) {} (fun t x => { t with Partitions := x })

/-- Where the fields of `WritableTxnMarkerTopicResult27` end. -/
def WritableTxnMarkerTopicResult27.ends (version : Int16) (t : WritableTxnMarkerTopicResult27) : Nat → Nat :=
  Cut.ends 0 [Wire.string t.Name,
    Wire.array (WritableTxnMarkerPartitionResult27.wire version) t.Partitions]

/-- What is left of `t` if only its first `n` bytes are there. -/
def WritableTxnMarkerTopicResult27.cut (version : Int16) (n : Nat) (t : WritableTxnMarkerTopicResult27) : WritableTxnMarkerTopicResult27 :=
  { Name := Cut.field n (t.ends version 0) t.Name [],
    Partitions := Cut.array n (t.ends version 0) (WritableTxnMarkerPartitionResult27.wire version) (fun x => x.seen version {}) {} t.Partitions }

/-- The same after the first `k` statements of `Decode`. -/
def WritableTxnMarkerTopicResult27.cutAt (version : Int16) (t : WritableTxnMarkerTopicResult27) (k n : Nat) : WritableTxnMarkerTopicResult27 :=
  { Name := upto k 0 (Cut.field n (t.ends version 0) t.Name []) [],
    Partitions := upto k 1 (Cut.array n (t.ends version 0) (WritableTxnMarkerPartitionResult27.wire version) (fun x => x.seen version {}) {} t.Partitions) none }

/-- The first `k` fields of `y`, and zeros. -/
def WritableTxnMarkerTopicResult27.first (k : Nat) (y : WritableTxnMarkerTopicResult27) : WritableTxnMarkerTopicResult27 :=
  { Name := upto k 0 y.Name [],
    Partitions := upto k 1 y.Partitions none }

/-- `r` is a beginning of `y`, and zeros. -/
def WritableTxnMarkerTopicResult27.Part (r y : WritableTxnMarkerTopicResult27) : Prop :=
  (∃ k, k < 2 ∧ r = y.first k) ∨
    Cut.begun {} (fun t => t.Partitions) (fun t x => { t with Partitions := x }) (WritableTxnMarkerTopicResult27.first 1) r y

/-- `WritableTxnMarkerTopicResult27` with its receiver kept. -/
def WritableTxnMarkerTopicResult27.keeps : KeptMsg WritableTxnMarkerTopicResult27.type := { decode := WritableTxnMarkerTopicResult27.decodeK, cut := WritableTxnMarkerTopicResult27.cut, Part := WritableTxnMarkerTopicResult27.Part }

theorem WritableTxnMarkerTopicResult27.sameK (version : Int16) : KStep (WritableTxnMarkerTopicResult27.decodeK version) (WritableTxnMarkerTopicResult27.decode version) :=
  (KStep.field)
    |>.andThen (KStep.structs (fun _ => rfl) (WritableTxnMarkerPartitionResult27.sameK version {}))
theorem WritableTxnMarkerTopicResult27.cutsK (version : Int16) (t : WritableTxnMarkerTopicResult27) (h : t.Fits version) :
    Cuts (WritableTxnMarkerTopicResult27.decodeK version) 0 (WritableTxnMarkerTopicResult27.wire version t) (WritableTxnMarkerTopicResult27.ends version t 1) (WritableTxnMarkerTopicResult27.cutAt version t 0) (WritableTxnMarkerTopicResult27.cutAt version t 2) :=
  (.field (reads_string h.Name) (fun _ => rfl) (fun _ => rfl) : Cuts _ 0 _ (WritableTxnMarkerTopicResult27.ends version t 0) (WritableTxnMarkerTopicResult27.cutAt version t 0) (WritableTxnMarkerTopicResult27.cutAt version t 1))
    |>.andThen (.structs (WritableTxnMarkerPartitionResult27.sameK version {}) (fun x hx => WritableTxnMarkerPartitionResult27.reads version x hx {}) h.Partitions (fun _ => rfl) (fun _ => rfl) : Cuts _ (WritableTxnMarkerTopicResult27.ends version t 0) _ (WritableTxnMarkerTopicResult27.ends version t 1) (WritableTxnMarkerTopicResult27.cutAt version t 1) (WritableTxnMarkerTopicResult27.cutAt version t 2))
theorem WritableTxnMarkerTopicResult27.partsK (version : Int16) : Parts (WritableTxnMarkerTopicResult27.decodeK version) (WritableTxnMarkerTopicResult27.first 0) (WritableTxnMarkerTopicResult27.first 2) (fun r y => ((r = WritableTxnMarkerTopicResult27.first 0 y) ∨ (r = WritableTxnMarkerTopicResult27.first 1 y ∨ Cut.begun {} (fun t => t.Partitions) (fun t x => { t with Partitions := x }) (WritableTxnMarkerTopicResult27.first 1) r y))) :=
  (.field Longer.string (fun _ => rfl) (fun _ _ => rfl) (fun _ _ => rfl) (fun _ => rfl) : Parts (KDec.field Dec.string [] (fun t x => { t with Name := x })) (WritableTxnMarkerTopicResult27.first 0) (WritableTxnMarkerTopicResult27.first 1) (fun r y => r = WritableTxnMarkerTopicResult27.first 0 y))
    |>.andThen (.structs (get := fun (t : WritableTxnMarkerTopicResult27) => t.Partitions) ((WritableTxnMarkerPartitionResult27.partsK version).longer {}) (fun _ => rfl) (fun _ => rfl) (fun _ _ => rfl) (fun _ _ => rfl) (fun _ _ => rfl) (fun _ => rfl) (fun _ => rfl) : Parts (KDec.fieldStructs (WritableTxnMarkerPartitionResult27.decodeK version {}) {} (fun t x => { t with Partitions := x })) (WritableTxnMarkerTopicResult27.first 1) (WritableTxnMarkerTopicResult27.first 2) (fun r y => r = WritableTxnMarkerTopicResult27.first 1 y ∨ Cut.begun {} (fun t => t.Partitions) (fun t x => { t with Partitions := x }) (WritableTxnMarkerTopicResult27.first 1) r y))
theorem WritableTxnMarkerTopicResult27.filled (version : Int16) : FilledStep 6 12884901898 (WritableTxnMarkerTopicResult27.decode version) :=
  ((FilledStep.field .string)
    |>.andThen (FilledStep.structs (WritableTxnMarkerPartitionResult27.filled version {}))).mono (by decide) (by decide)
theorem WritableTxnMarkerTopicResult27.part_of (r y : WritableTxnMarkerTopicResult27) (h : ((r = WritableTxnMarkerTopicResult27.first 0 y) ∨ (r = WritableTxnMarkerTopicResult27.first 1 y ∨ Cut.begun {} (fun t => t.Partitions) (fun t x => { t with Partitions := x }) (WritableTxnMarkerTopicResult27.first 1) r y))) : WritableTxnMarkerTopicResult27.Part r y :=
  match h with
    | (.inl h) => .inl ⟨0, by decide, h⟩
    | (.inr (.inl h)) => .inl ⟨1, by decide, h⟩
    | (.inr (.inr h)) => (.inr h)
theorem WritableTxnMarkerTopicResult27.keeps_holds : WritableTxnMarkerTopicResult27.keeps.Holds WritableTxnMarkerTopicResult27.layout :=
  KeptMsg.holds WritableTxnMarkerTopicResult27.lawful WritableTxnMarkerTopicResult27.sameK (stop := fun v t => WritableTxnMarkerTopicResult27.ends v t 1) (c := fun v t => WritableTxnMarkerTopicResult27.cutAt v t 0) (fun _ _ _ => rfl) WritableTxnMarkerTopicResult27.cutsK (c0 := WritableTxnMarkerTopicResult27.first 0) rfl WritableTxnMarkerTopicResult27.partsK WritableTxnMarkerTopicResult27.part_of WritableTxnMarkerTopicResult27.filled (by decide) (by decide)

/-- message/messages.gen.go:7242-7262 `WritableTxnMarkerResult27.Decode`, with the receiver kept -/
def WritableTxnMarkerResult27.decodeK (version : Int16) : KDec WritableTxnMarkerResult27 :=
    KDec.field Dec.int64 0 (fun t x => { t with ProducerId := x }) ;|>
    KDec.fieldStructs (WritableTxnMarkerTopicResult27.decodeK version {}) {} (fun t x => { t with Topics := x })

/-- Where the fields of `WritableTxnMarkerResult27` end. -/
def WritableTxnMarkerResult27.ends (version : Int16) (t : WritableTxnMarkerResult27) : Nat → Nat :=
  Cut.ends 0 [Wire.int64 t.ProducerId,
    Wire.array (WritableTxnMarkerTopicResult27.wire version) t.Topics]

/-- What is left of `t` if only its first `n` bytes are there. -/
def WritableTxnMarkerResult27.cut (version : Int16) (n : Nat) (t : WritableTxnMarkerResult27) : WritableTxnMarkerResult27 :=
  { ProducerId := Cut.field n (t.ends version 0) t.ProducerId 0,
    Topics := Cut.array n (t.ends version 0) (WritableTxnMarkerTopicResult27.wire version) (fun x => x.seen version {}) {} t.Topics }

/-- The same after the first `k` statements of `Decode`. -/
def WritableTxnMarkerResult27.cutAt (version : Int16) (t : WritableTxnMarkerResult27) (k n : Nat) : WritableTxnMarkerResult27 :=
  { ProducerId := upto k 0 (Cut.field n (t.ends version 0) t.ProducerId 0) 0,
    Topics := upto k 1 (Cut.array n (t.ends version 0) (WritableTxnMarkerTopicResult27.wire version) (fun x => x.seen version {}) {} t.Topics) none }

/-- The first `k` fields of `y`, and zeros. -/
def WritableTxnMarkerResult27.first (k : Nat) (y : WritableTxnMarkerResult27) : WritableTxnMarkerResult27 :=
  { ProducerId := upto k 0 y.ProducerId 0,
    Topics := upto k 1 y.Topics none }

/-- `r` is a beginning of `y`, and zeros. -/
def WritableTxnMarkerResult27.Part (r y : WritableTxnMarkerResult27) : Prop :=
  (∃ k, k < 2 ∧ r = y.first k) ∨
    Cut.begun {} (fun t => t.Topics) (fun t x => { t with Topics := x }) (WritableTxnMarkerResult27.first 1) r y

/-- `WritableTxnMarkerResult27` with its receiver kept. -/
def WritableTxnMarkerResult27.keeps : KeptMsg WritableTxnMarkerResult27.type := { decode := WritableTxnMarkerResult27.decodeK, cut := WritableTxnMarkerResult27.cut, Part := WritableTxnMarkerResult27.Part }

theorem WritableTxnMarkerResult27.sameK (version : Int16) : KStep (WritableTxnMarkerResult27.decodeK version) (WritableTxnMarkerResult27.decode version) :=
  (KStep.field)
    |>.andThen (KStep.structs (fun _ => rfl) (WritableTxnMarkerTopicResult27.sameK version {}))
theorem WritableTxnMarkerResult27.cutsK (version : Int16) (t : WritableTxnMarkerResult27) (h : t.Fits version) :
    Cuts (WritableTxnMarkerResult27.decodeK version) 0 (WritableTxnMarkerResult27.wire version t) (WritableTxnMarkerResult27.ends version t 1) (WritableTxnMarkerResult27.cutAt version t 0) (WritableTxnMarkerResult27.cutAt version t 2) :=
  (.field (reads_int64 t.ProducerId) (fun _ => rfl) (fun _ => rfl) : Cuts _ 0 _ (WritableTxnMarkerResult27.ends version t 0) (WritableTxnMarkerResult27.cutAt version t 0) (WritableTxnMarkerResult27.cutAt version t 1))
    |>.andThen (.structs (WritableTxnMarkerTopicResult27.sameK version {}) (fun x hx => WritableTxnMarkerTopicResult27.reads version x hx {}) h.Topics (fun _ => rfl) (fun _ => rfl) : Cuts _ (WritableTxnMarkerResult27.ends version t 0) _ (WritableTxnMarkerResult27.ends version t 1) (WritableTxnMarkerResult27.cutAt version t 1) (WritableTxnMarkerResult27.cutAt version t 2))
theorem WritableTxnMarkerResult27.partsK (version : Int16) : Parts (WritableTxnMarkerResult27.decodeK version) (WritableTxnMarkerResult27.first 0) (WritableTxnMarkerResult27.first 2) (fun r y => ((r = WritableTxnMarkerResult27.first 0 y) ∨ (r = WritableTxnMarkerResult27.first 1 y ∨ Cut.begun {} (fun t => t.Topics) (fun t x => { t with Topics := x }) (WritableTxnMarkerResult27.first 1) r y))) :=
  (.field Longer.int64 (fun _ => rfl) (fun _ _ => rfl) (fun _ _ => rfl) (fun _ => rfl) : Parts (KDec.field Dec.int64 0 (fun t x => { t with ProducerId := x })) (WritableTxnMarkerResult27.first 0) (WritableTxnMarkerResult27.first 1) (fun r y => r = WritableTxnMarkerResult27.first 0 y))
    |>.andThen (.structs (get := fun (t : WritableTxnMarkerResult27) => t.Topics) ((WritableTxnMarkerTopicResult27.partsK version).longer {}) (fun _ => rfl) (fun _ => rfl) (fun _ _ => rfl) (fun _ _ => rfl) (fun _ _ => rfl) (fun _ => rfl) (fun _ => rfl) : Parts (KDec.fieldStructs (WritableTxnMarkerTopicResult27.decodeK version {}) {} (fun t x => { t with Topics := x })) (WritableTxnMarkerResult27.first 1) (WritableTxnMarkerResult27.first 2) (fun r y => r = WritableTxnMarkerResult27.first 1 y ∨ Cut.begun {} (fun t => t.Topics) (fun t x => { t with Topics := x }) (WritableTxnMarkerResult27.first 1) r y))
theorem WritableTxnMarkerResult27.filled (version : Int16) : FilledStep 12 25769803790 (WritableTxnMarkerResult27.decode version) :=
  ((FilledStep.field .int64)
    |>.andThen (FilledStep.structs (WritableTxnMarkerTopicResult27.filled version {}))).mono (by decide) (by decide)
theorem WritableTxnMarkerResult27.part_of (r y : WritableTxnMarkerResult27) (h : ((r = WritableTxnMarkerResult27.first 0 y) ∨ (r = WritableTxnMarkerResult27.first 1 y ∨ Cut.begun {} (fun t => t.Topics) (fun t x => { t with Topics := x }) (WritableTxnMarkerResult27.first 1) r y))) : WritableTxnMarkerResult27.Part r y :=
  match h with
    | (.inl h) => .inl ⟨0, by decide, h⟩
    | (.inr (.inl h)) => .inl ⟨1, by decide, h⟩
    | (.inr (.inr h)) => (.inr h)
theorem WritableTxnMarkerResult27.keeps_holds : WritableTxnMarkerResult27.keeps.Holds WritableTxnMarkerResult27.layout :=
  KeptMsg.holds WritableTxnMarkerResult27.lawful WritableTxnMarkerResult27.sameK (stop := fun v t => WritableTxnMarkerResult27.ends v t 1) (c := fun v t => WritableTxnMarkerResult27.cutAt v t 0) (fun _ _ _ => rfl) WritableTxnMarkerResult27.cutsK (c0 := WritableTxnMarkerResult27.first 0) rfl WritableTxnMarkerResult27.partsK WritableTxnMarkerResult27.part_of WritableTxnMarkerResult27.filled (by decide) (by decide)

/-- message/messages.gen.go:7196-7212 `WriteTxnMarkersResponse.Decode`, with the receiver kept -/
def WriteTxnMarkersResponse.decodeK (version : Int16) : KDec WriteTxnMarkersResponse :=
    KDec.fieldStructs (WritableTxnMarkerResult27.decodeK version {}) {} (fun t x => { t with Markers := x })

/-- Where the fields of `WriteTxnMarkersResponse` end. -/
def WriteTxnMarkersResponse.ends (version : Int16) (t : WriteTxnMarkersResponse) : Nat → Nat :=
  Cut.ends 0 [Wire.array (WritableTxnMarkerResult27.wire version) t.Markers]

/-- What is left of `t` if only its first `n` bytes are there. -/
def WriteTxnMarkersResponse.cut (version : Int16) (n : Nat) (t : WriteTxnMarkersResponse) : WriteTxnMarkersResponse :=
  { Markers := Cut.array n 0 (WritableTxnMarkerResult27.wire version) (fun x => x.seen version {}) {} t.Markers }

/-- The same after the first `k` statements of `Decode`. -/
def WriteTxnMarkersResponse.cutAt (version : Int16) (t : WriteTxnMarkersResponse) (k n : Nat) : WriteTxnMarkersResponse :=
  { Markers := upto k 0 (Cut.array n 0 (WritableTxnMarkerResult27.wire version) (fun x => x.seen version {}) {} t.Markers) none }

/-- The first `k` fields of `y`, and zeros. -/
def WriteTxnMarkersResponse.first (k : Nat) (y : WriteTxnMarkersResponse) : WriteTxnMarkersResponse :=
  { Markers := upto k 0 y.Markers none }

/-- `r` is a beginning of `y`, and zeros. -/
def WriteTxnMarkersResponse.Part (r y : WriteTxnMarkersResponse) : Prop :=
  (∃ k, k < 1 ∧ r = y.first k) ∨
    Cut.begun {} (fun t => t.Markers) (fun t x => { t with Markers := x }) (WriteTxnMarkersResponse.first 0) r y

/-- `WriteTxnMarkersResponse` with its receiver kept. -/
def WriteTxnMarkersResponse.keeps : KeptMsg WriteTxnMarkersResponse.type := { decode := WriteTxnMarkersResponse.decodeK, cut := WriteTxnMarkersResponse.cut, Part := WriteTxnMarkersResponse.Part }

theorem WriteTxnMarkersResponse.sameK (version : Int16) : KStep (WriteTxnMarkersResponse.decodeK version) (WriteTxnMarkersResponse.decode version) :=
  KStep.structs (fun _ => rfl) (WritableTxnMarkerResult27.sameK version {})
theorem WriteTxnMarkersResponse.cutsK (version : Int16) (t : WriteTxnMarkersResponse) (h : t.Fits version) :
    Cuts (WriteTxnMarkersResponse.decodeK version) 0 (WriteTxnMarkersResponse.wire version t) (WriteTxnMarkersResponse.ends version t 0) (WriteTxnMarkersResponse.cutAt version t 0) (WriteTxnMarkersResponse.cutAt version t 1) :=
  (.structs (WritableTxnMarkerResult27.sameK version {}) (fun x hx => WritableTxnMarkerResult27.reads version x hx {}) h.Markers (fun _ => rfl) (fun _ => rfl) : Cuts _ 0 _ (WriteTxnMarkersResponse.ends version t 0) (WriteTxnMarkersResponse.cutAt version t 0) (WriteTxnMarkersResponse.cutAt version t 1))
theorem WriteTxnMarkersResponse.partsK (version : Int16) : Parts (WriteTxnMarkersResponse.decodeK version) (WriteTxnMarkersResponse.first 0) (WriteTxnMarkersResponse.first 1) (fun r y => (r = WriteTxnMarkersResponse.first 0 y ∨ Cut.begun {} (fun t => t.Markers) (fun t x => { t with Markers := x }) (WriteTxnMarkersResponse.first 0) r y)) :=
  (.structs (get := fun (t : WriteTxnMarkersResponse) => t.Markers) ((WritableTxnMarkerResult27.partsK version).longer {}) (fun _ => rfl) (fun _ => rfl) (fun _ _ => rfl) (fun _ _ => rfl) (fun _ _ => rfl) (fun _ => rfl) (fun _ => rfl) : Parts (KDec.fieldStructs (WritableTxnMarkerResult27.decodeK version {}) {} (fun t x => { t with Markers := x })) (WriteTxnMarkersResponse.first 0) (WriteTxnMarkersResponse.first 1) (fun r y => r = WriteTxnMarkersResponse.first 0 y ∨ Cut.begun {} (fun t => t.Markers) (fun t x => { t with Markers := x }) (WriteTxnMarkersResponse.first 0) r y))
theorem WriteTxnMarkersResponse.filled (version : Int16) : FilledStep 4 51539607570 (WriteTxnMarkersResponse.decode version) :=
  (FilledStep.structs (WritableTxnMarkerResult27.filled version {})).mono (by decide) (by decide)
theorem WriteTxnMarkersResponse.part_of (r y : WriteTxnMarkersResponse) (h : (r = WriteTxnMarkersResponse.first 0 y ∨ Cut.begun {} (fun t => t.Markers) (fun t x => { t with Markers := x }) (WriteTxnMarkersResponse.first 0) r y)) : WriteTxnMarkersResponse.Part r y :=
  match h with
    | (.inl h) => .inl ⟨0, by decide, h⟩
    | (.inr h) => (.inr h)
theorem WriteTxnMarkersResponse.keeps_holds : WriteTxnMarkersResponse.keeps.Holds WriteTxnMarkersResponse.layout :=
  KeptMsg.holds WriteTxnMarkersResponse.lawful WriteTxnMarkersResponse.sameK (stop := fun v t => WriteTxnMarkersResponse.ends v t 0) (c := fun v t => WriteTxnMarkersResponse.cutAt v t 0) (fun _ _ _ => rfl) WriteTxnMarkersResponse.cutsK (c0 := WriteTxnMarkersResponse.first 0) rfl WriteTxnMarkersResponse.partsK WriteTxnMarkersResponse.part_of WriteTxnMarkersResponse.filled (by decide) (by decide)

/-- The structures of the WriteTxnMarkers messages. -/
def keptWriteTxnMarkers : List (Σ (M : MsgType) (_ : Layout M), KeptMsg M) :=
  [⟨WriteTxnMarkersRequest.type, WriteTxnMarkersRequest.layout, WriteTxnMarkersRequest.keeps⟩,
   ⟨WritableTxnMarker27.type, WritableTxnMarker27.layout, WritableTxnMarker27.keeps⟩,
   ⟨WritableTxnMarkerTopic27.type, WritableTxnMarkerTopic27.layout, WritableTxnMarkerTopic27.keeps⟩,
   ⟨WriteTxnMarkersResponse.type, WriteTxnMarkersResponse.layout, WriteTxnMarkersResponse.keeps⟩,
   ⟨WritableTxnMarkerResult27.type, WritableTxnMarkerResult27.layout, WritableTxnMarkerResult27.keeps⟩,
   ⟨WritableTxnMarkerTopicResult27.type, WritableTxnMarkerTopicResult27.layout, WritableTxnMarkerTopicResult27.keeps⟩,
   ⟨WritableTxnMarkerPartitionResult27.type, WritableTxnMarkerPartitionResult27.layout, WritableTxnMarkerPartitionResult27.keeps⟩]
theorem keptWriteTxnMarkers_holds : ∀ p ∈ keptWriteTxnMarkers, p.2.2.Holds p.2.1 := by
  unfold keptWriteTxnMarkers
  simp only [List.forall_mem_cons]
  exact ⟨WriteTxnMarkersRequest.keeps_holds, WritableTxnMarker27.keeps_holds, WritableTxnMarkerTopic27.keeps_holds, WriteTxnMarkersResponse.keeps_holds, WritableTxnMarkerResult27.keeps_holds, WritableTxnMarkerTopicResult27.keeps_holds, WritableTxnMarkerPartitionResult27.keeps_holds, fun _ h => absurd h (by simp)⟩

end Kafka.Msg
