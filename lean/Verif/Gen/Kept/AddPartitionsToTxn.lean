import Verif.Message.KeptLemmas
import Verif.Gen.Proof.AddPartitionsToTxn
/-!
Generated by tools/gen_messages.py: what is in the AddPartitionsToTxn messages after an error.
-/
set_option linter.unusedVariables false
namespace Kafka.Msg

/-- message/messages.gen.go:6711-6722 `AddPartitionsToTxnTopic24.Decode`, with the receiver kept -/
def AddPartitionsToTxnTopic24.decodeK (_version : Int16) : KDec AddPartitionsToTxnTopic24 :=
    KDec.field Dec.string [] (fun t x => { t with Name := x }) ;|>
    KDec.field Dec.int32Array none (fun t x => { t with Partitions := x })

/-- Where the fields of `AddPartitionsToTxnTopic24` end. -/
def AddPartitionsToTxnTopic24.ends (_version : Int16) (t : AddPartitionsToTxnTopic24) : Nat → Nat :=
  Cut.ends 0 [Wire.string t.Name,
    Wire.int32Array t.Partitions]

/-- What is left of `t` if only its first `n` bytes are there. -/
def AddPartitionsToTxnTopic24.cut (version : Int16) (n : Nat) (t : AddPartitionsToTxnTopic24) : AddPartitionsToTxnTopic24 :=
  { Name := Cut.field n (t.ends version 0) t.Name [],
    Partitions := Cut.field n (t.ends version 1) t.Partitions none }

/-- The same after the first `k` statements of `Decode`. -/
def AddPartitionsToTxnTopic24.cutAt (version : Int16) (t : AddPartitionsToTxnTopic24) (k n : Nat) : AddPartitionsToTxnTopic24 :=
  { Name := upto k 0 (Cut.field n (t.ends version 0) t.Name []) [],
    Partitions := upto k 1 (Cut.field n (t.ends version 1) t.Partitions none) none }

/-- The first `k` fields of `y`, and zeros. -/
def AddPartitionsToTxnTopic24.first (k : Nat) (y : AddPartitionsToTxnTopic24) : AddPartitionsToTxnTopic24 :=
  { Name := upto k 0 y.Name [],
    Partitions := upto k 1 y.Partitions none }

/-- `r` is a beginning of `y`, and zeros. -/
def AddPartitionsToTxnTopic24.Part (r y : AddPartitionsToTxnTopic24) : Prop :=
  (∃ k, k < 2 ∧ r = y.first k)

/-- `AddPartitionsToTxnTopic24` with its receiver kept. -/
def AddPartitionsToTxnTopic24.keeps : KeptMsg AddPartitionsToTxnTopic24.type := { decode := AddPartitionsToTxnTopic24.decodeK, cut := AddPartitionsToTxnTopic24.cut, Part := AddPartitionsToTxnTopic24.Part }

theorem AddPartitionsToTxnTopic24.sameK (version : Int16) : KStep (AddPartitionsToTxnTopic24.decodeK version) (AddPartitionsToTxnTopic24.decode version) :=
  (KStep.field)
    |>.andThen (KStep.field)
theorem AddPartitionsToTxnTopic24.cutsK (version : Int16) (t : AddPartitionsToTxnTopic24) (h : t.Fits version) :
    Cuts (AddPartitionsToTxnTopic24.decodeK version) 0 (AddPartitionsToTxnTopic24.wire version t) (AddPartitionsToTxnTopic24.ends version t 1) (AddPartitionsToTxnTopic24.cutAt version t 0) (AddPartitionsToTxnTopic24.cutAt version t 2) :=
  (.field (reads_string h.Name) (fun _ => rfl) (fun _ => rfl) : Cuts _ 0 _ (AddPartitionsToTxnTopic24.ends version t 0) (AddPartitionsToTxnTopic24.cutAt version t 0) (AddPartitionsToTxnTopic24.cutAt version t 1))
    |>.andThen (.field (reads_int32Array h.Partitions) (fun _ => rfl) (fun _ => rfl) : Cuts _ (AddPartitionsToTxnTopic24.ends version t 0) _ (AddPartitionsToTxnTopic24.ends version t 1) (AddPartitionsToTxnTopic24.cutAt version t 1) (AddPartitionsToTxnTopic24.cutAt version t 2))
theorem AddPartitionsToTxnTopic24.partsK (version : Int16) : Parts (AddPartitionsToTxnTopic24.decodeK version) (AddPartitionsToTxnTopic24.first 0) (AddPartitionsToTxnTopic24.first 2) (fun r y => ((r = AddPartitionsToTxnTopic24.first 0 y) ∨ (r = AddPartitionsToTxnTopic24.first 1 y))) :=
  (.field Longer.string (fun _ => rfl) (fun _ _ => rfl) (fun _ _ => rfl) (fun _ => rfl) : Parts (KDec.field Dec.string [] (fun t x => { t with Name := x })) (AddPartitionsToTxnTopic24.first 0) (AddPartitionsToTxnTopic24.first 1) (fun r y => r = AddPartitionsToTxnTopic24.first 0 y))
    |>.andThen (.field Longer.int32Array (fun _ => rfl) (fun _ _ => rfl) (fun _ _ => rfl) (fun _ => rfl) : Parts (KDec.field Dec.int32Array none (fun t x => { t with Partitions := x })) (AddPartitionsToTxnTopic24.first 1) (AddPartitionsToTxnTopic24.first 2) (fun r y => r = AddPartitionsToTxnTopic24.first 1 y))
theorem AddPartitionsToTxnTopic24.filled (version : Int16) : FilledStep 6 8589934600 (AddPartitionsToTxnTopic24.decode version) :=
  ((FilledStep.field .string)
    |>.andThen (FilledStep.field .int32Array)).mono (by decide) (by decide)
theorem AddPartitionsToTxnTopic24.part_of (r y : AddPartitionsToTxnTopic24) (h : ((r = AddPartitionsToTxnTopic24.first 0 y) ∨ (r = AddPartitionsToTxnTopic24.first 1 y))) : AddPartitionsToTxnTopic24.Part r y :=
  match h with
    | (.inl h) => ⟨0, by decide, h⟩
    | (.inr h) => ⟨1, by decide, h⟩
theorem AddPartitionsToTxnTopic24.keeps_holds : AddPartitionsToTxnTopic24.keeps.Holds AddPartitionsToTxnTopic24.layout :=
  KeptMsg.holds AddPartitionsToTxnTopic24.lawful AddPartitionsToTxnTopic24.sameK (stop := fun v t => AddPartitionsToTxnTopic24.ends v t 1) (c := fun v t => AddPartitionsToTxnTopic24.cutAt v t 0) (fun _ _ _ => rfl) AddPartitionsToTxnTopic24.cutsK (c0 := AddPartitionsToTxnTopic24.first 0) rfl AddPartitionsToTxnTopic24.partsK AddPartitionsToTxnTopic24.part_of AddPartitionsToTxnTopic24.filled (by decide) (by decide)

/-- message/messages.gen.go:6661-6689 `AddPartitionsToTxnRequest.Decode`, with the receiver kept -/
def AddPartitionsToTxnRequest.decodeK (version : Int16) : KDec AddPartitionsToTxnRequest :=
    KDec.field Dec.string [] (fun t x => { t with TransactionalId := x }) ;|>
    KDec.field Dec.int64 0 (fun t x => { t with ProducerId := x }) ;|>
    KDec.field Dec.int16 0 (fun t x => { t with ProducerEpoch := x }) ;|>
    KDec.fieldStructs (AddPartitionsToTxnTopic24.decodeK version {}) {} (fun t x => { t with Topics := x })

/-- Where the fields of `AddPartitionsToTxnRequest` end. -/
def AddPartitionsToTxnRequest.ends (version : Int16) (t : AddPartitionsToTxnRequest) : Nat → Nat :=
  Cut.ends 0 [Wire.string t.TransactionalId,
    Wire.int64 t.ProducerId,
    Wire.int16 t.ProducerEpoch,
    Wire.array (AddPartitionsToTxnTopic24.wire version) t.Topics]

/-- What is left of `t` if only its first `n` bytes are there. -/
def AddPartitionsToTxnRequest.cut (version : Int16) (n : Nat) (t : AddPartitionsToTxnRequest) : AddPartitionsToTxnRequest :=
  { TransactionalId := Cut.field n (t.ends version 0) t.TransactionalId [],
    ProducerId := Cut.field n (t.ends version 1) t.ProducerId 0,
    ProducerEpoch := Cut.field n (t.ends version 2) t.ProducerEpoch 0,
    Topics := Cut.array n (t.ends version 2) (AddPartitionsToTxnTopic24.wire version) (fun x => x.seen version {}) {} t.Topics }

/-- The same after the first `k` statements of `Decode`. -/
def AddPartitionsToTxnRequest.cutAt (version : Int16) (t : AddPartitionsToTxnRequest) (k n : Nat) : AddPartitionsToTxnRequest :=
  { TransactionalId := upto k 0 (Cut.field n (t.ends version 0) t.TransactionalId []) [],
    ProducerId := upto k 1 (Cut.field n (t.ends version 1) t.ProducerId 0) 0,
    ProducerEpoch := upto k 2 (Cut.field n (t.ends version 2) t.ProducerEpoch 0) 0,
    Topics := upto k 3 (Cut.array n (t.ends version 2) (AddPartitionsToTxnTopic24.wire version) (fun x => x.seen version {}) {} t.Topics) none }

/-- The first `k` fields of `y`, and zeros. -/
def AddPartitionsToTxnRequest.first (k : Nat) (y : AddPartitionsToTxnRequest) : AddPartitionsToTxnRequest :=
  { TransactionalId := upto k 0 y.TransactionalId [],
    ProducerId := upto k 1 y.ProducerId 0,
    ProducerEpoch := upto k 2 y.ProducerEpoch 0,
    Topics := upto k 3 y.Topics none }

/-- `r` is a beginning of `y`, and zeros. -/
def AddPartitionsToTxnRequest.Part (r y : AddPartitionsToTxnRequest) : Prop :=
  (∃ k, k < 4 ∧ r = y.first k) ∨
    Cut.begun {} (fun t => t.Topics) (fun t x => { t with Topics := x }) (AddPartitionsToTxnRequest.first 3) r y

/-- `AddPartitionsToTxnRequest` with its receiver kept. -/
def AddPartitionsToTxnRequest.keeps : KeptMsg AddPartitionsToTxnRequest.type := { decode := AddPartitionsToTxnRequest.decodeK, cut := AddPartitionsToTxnRequest.cut, Part := AddPartitionsToTxnRequest.Part }

theorem AddPartitionsToTxnRequest.sameK (version : Int16) : KStep (AddPartitionsToTxnRequest.decodeK version) (AddPartitionsToTxnRequest.decode version) :=
  (KStep.field)
    |>.andThen (KStep.field)
    |>.andThen (KStep.field)
    |>.andThen (KStep.structs (fun _ => rfl) (AddPartitionsToTxnTopic24.sameK version {}))
theorem AddPartitionsToTxnRequest.cutsK (version : Int16) (t : AddPartitionsToTxnRequest) (h : t.Fits version) :
    Cuts (AddPartitionsToTxnRequest.decodeK version) 0 (AddPartitionsToTxnRequest.wire version t) (AddPartitionsToTxnRequest.ends version t 3) (AddPartitionsToTxnRequest.cutAt version t 0) (AddPartitionsToTxnRequest.cutAt version t 4) :=
  (.field (reads_string h.TransactionalId) (fun _ => rfl) (fun _ => rfl) : Cuts _ 0 _ (AddPartitionsToTxnRequest.ends version t 0) (AddPartitionsToTxnRequest.cutAt version t 0) (AddPartitionsToTxnRequest.cutAt version t 1))
    |>.andThen (.field (reads_int64 t.ProducerId) (fun _ => rfl) (fun _ => rfl) : Cuts _ (AddPartitionsToTxnRequest.ends version t 0) _ (AddPartitionsToTxnRequest.ends version t 1) (AddPartitionsToTxnRequest.cutAt version t 1) (AddPartitionsToTxnRequest.cutAt version t 2))
    |>.andThen (.field (reads_int16 t.ProducerEpoch) (fun _ => rfl) (fun _ => rfl) : Cuts _ (AddPartitionsToTxnRequest.ends version t 1) _ (AddPartitionsToTxnRequest.ends version t 2) (AddPartitionsToTxnRequest.cutAt version t 2) (AddPartitionsToTxnRequest.cutAt version t 3))
    |>.andThen (.structs (AddPartitionsToTxnTopic24.sameK version {}) (fun x hx => AddPartitionsToTxnTopic24.reads version x hx {}) h.Topics (fun _ => rfl) (fun _ => rfl) : Cuts _ (AddPartitionsToTxnRequest.ends version t 2) _ (AddPartitionsToTxnRequest.ends version t 3) (AddPartitionsToTxnRequest.cutAt version t 3) (AddPartitionsToTxnRequest.cutAt version t 4))
theorem AddPartitionsToTxnRequest.partsK (version : Int16) : Parts (AddPartitionsToTxnRequest.decodeK version) (AddPartitionsToTxnRequest.first 0) (AddPartitionsToTxnRequest.first 4) (fun r y => ((((r = AddPartitionsToTxnRequest.first 0 y) ∨ (r = AddPartitionsToTxnRequest.first 1 y)) ∨ (r = AddPartitionsToTxnRequest.first 2 y)) ∨ (r = AddPartitionsToTxnRequest.first 3 y ∨ Cut.begun {} (fun t => t.Topics) (fun t x => { t with Topics := x }) (AddPartitionsToTxnRequest.first 3) r y))) :=
  (.field Longer.string (fun _ => rfl) (fun _ _ => rfl) (fun _ _ => rfl) (fun _ => rfl) : Parts (KDec.field Dec.string [] (fun t x => { t with TransactionalId := x })) (AddPartitionsToTxnRequest.first 0) (AddPartitionsToTxnRequest.first 1) (fun r y => r = AddPartitionsToTxnRequest.first 0 y))
    |>.andThen (.field Longer.int64 (fun _ => rfl) (fun _ _ => rfl) (fun _ _ => rfl) (fun _ => rfl) : Parts (KDec.field Dec.int64 0 (fun t x => { t with ProducerId := x })) (AddPartitionsToTxnRequest.first 1) (AddPartitionsToTxnRequest.first 2) (fun r y => r = AddPartitionsToTxnRequest.first 1 y))
    |>.andThen (.field Longer.int16 (fun _ => rfl) (fun _ _ => rfl) (fun _ _ => rfl) (fun _ => rfl) : Parts (KDec.field Dec.int16 0 (fun t x => { t with ProducerEpoch := x })) (AddPartitionsToTxnRequest.first 2) (AddPartitionsToTxnRequest.first 3) (fun r y => r = AddPartitionsToTxnRequest.first 2 y))
    |>.andThen (.structs (get := fun (t : AddPartitionsToTxnRequest) => t.Topics) ((AddPartitionsToTxnTopic24.partsK version).longer {}) (fun _ => rfl) (fun _ => rfl) (fun _ _ => rfl) (fun _ _ => rfl) (fun _ _ => rfl) (fun _ => rfl) (fun _ => rfl) : Parts (KDec.fieldStructs (AddPartitionsToTxnTopic24.decodeK version {}) {} (fun t x => { t with Topics := x })) (AddPartitionsToTxnRequest.first 3) (AddPartitionsToTxnRequest.first 4) (fun r y => r = AddPartitionsToTxnRequest.first 3 y ∨ Cut.begun {} (fun t => t.Topics) (fun t x => { t with Topics := x }) (AddPartitionsToTxnRequest.first 3) r y))
theorem AddPartitionsToTxnRequest.filled (version : Int16) : FilledStep 16 21474836492 (AddPartitionsToTxnRequest.decode version) :=
  ((FilledStep.field .string)
    |>.andThen (FilledStep.field .int64)
    |>.andThen (FilledStep.field .int16)
    |>.andThen (FilledStep.structs (AddPartitionsToTxnTopic24.filled version {}))).mono (by decide) (by decide)
theorem AddPartitionsToTxnRequest.part_of (r y : AddPartitionsToTxnRequest) (h : ((((r = AddPartitionsToTxnRequest.first 0 y) ∨ (r = AddPartitionsToTxnRequest.first 1 y)) ∨ (r = AddPartitionsToTxnRequest.first 2 y)) ∨ (r = AddPartitionsToTxnRequest.first 3 y ∨ Cut.begun {} (fun t => t.Topics) (fun t x => { t with Topics := x }) (AddPartitionsToTxnRequest.first 3) r y))) : AddPartitionsToTxnRequest.Part r y :=
  match h with
    | (.inl (.inl (.inl h))) => .inl ⟨0, by decide, h⟩
    | (.inl (.inl (.inr h))) => .inl ⟨1, by decide, h⟩
    | (.inl (.inr h)) => .inl ⟨2, by decide, h⟩
    | (.inr (.inl h)) => .inl ⟨3, by decide, h⟩
    | (.inr (.inr h)) => (.inr h)
theorem AddPartitionsToTxnRequest.keeps_holds : AddPartitionsToTxnRequest.keeps.Holds AddPartitionsToTxnRequest.layout :=
  KeptMsg.holds AddPartitionsToTxnRequest.lawful AddPartitionsToTxnRequest.sameK (stop := fun v t => AddPartitionsToTxnRequest.ends v t 3) (c := fun v t => AddPartitionsToTxnRequest.cutAt v t 0) (fun _ _ _ => rfl) AddPartitionsToTxnRequest.cutsK (c0 := AddPartitionsToTxnRequest.first 0) rfl AddPartitionsToTxnRequest.partsK AddPartitionsToTxnRequest.part_of AddPartitionsToTxnRequest.filled (by decide) (by decide)

/-- message/messages.gen.go:6845-6856 `AddPartitionsToTxnPartitionResult24.Decode`, with the receiver kept -/
def AddPartitionsToTxnPartitionResult24.decodeK (_version : Int16) : KDec AddPartitionsToTxnPartitionResult24 :=
    KDec.field Dec.int32 0 (fun t x => { t with PartitionIndex := x }) ;|>
    KDec.field Dec.int16 0 (fun t x => { t with ErrorCode := x })

/-- Where the fields of `AddPartitionsToTxnPartitionResult24` end. -/
def AddPartitionsToTxnPartitionResult24.ends (_version : Int16) (t : AddPartitionsToTxnPartitionResult24) : Nat → Nat :=
  Cut.ends 0 [Wire.int32 t.PartitionIndex,
    Wire.int16 t.ErrorCode]

/-- What is left of `t` if only its first `n` bytes are there. -/
def AddPartitionsToTxnPartitionResult24.cut (version : Int16) (n : Nat) (t : AddPartitionsToTxnPartitionResult24) : AddPartitionsToTxnPartitionResult24 :=
  { PartitionIndex := Cut.field n (t.ends version 0) t.PartitionIndex 0,
    ErrorCode := Cut.field n (t.ends version 1) t.ErrorCode 0 }

/-- The same after the first `k` statements of `Decode`. -/
def AddPartitionsToTxnPartitionResult24.cutAt (version : Int16) (t : AddPartitionsToTxnPartitionResult24) (k n : Nat) : AddPartitionsToTxnPartitionResult24 :=
  { PartitionIndex := upto k 0 (Cut.field n (t.ends version 0) t.PartitionIndex 0) 0,
    ErrorCode := upto k 1 (Cut.field n (t.ends version 1) t.ErrorCode 0) 0 }

/-- The first `k` fields of `y`, and zeros. -/
def AddPartitionsToTxnPartitionResult24.first (k : Nat) (y : AddPartitionsToTxnPartitionResult24) : AddPartitionsToTxnPartitionResult24 :=
  { PartitionIndex := upto k 0 y.PartitionIndex 0,
    ErrorCode := upto k 1 y.ErrorCode 0 }

/-- `r` is a beginning of `y`, and zeros. -/
def AddPartitionsToTxnPartitionResult24.Part (r y : AddPartitionsToTxnPartitionResult24) : Prop :=
  (∃ k, k < 2 ∧ r = y.first k)

/-- `AddPartitionsToTxnPartitionResult24` with its receiver kept. -/
def AddPartitionsToTxnPartitionResult24.keeps : KeptMsg AddPartitionsToTxnPartitionResult24.type := { decode := AddPartitionsToTxnPartitionResult24.decodeK, cut := AddPartitionsToTxnPartitionResult24.cut, Part := AddPartitionsToTxnPartitionResult24.Part }

theorem AddPartitionsToTxnPartitionResult24.sameK (version : Int16) : KStep (AddPartitionsToTxnPartitionResult24.decodeK version) (AddPartitionsToTxnPartitionResult24.decode version) :=
  (KStep.field)
    |>.andThen (KStep.field)
theorem AddPartitionsToTxnPartitionResult24.cutsK (version : Int16) (t : AddPartitionsToTxnPartitionResult24) (h : t.Fits version) :
    Cuts (AddPartitionsToTxnPartitionResult24.decodeK version) 0 (AddPartitionsToTxnPartitionResult24.wire version t) (AddPartitionsToTxnPartitionResult24.ends version t 1) (AddPartitionsToTxnPartitionResult24.cutAt version t 0) (AddPartitionsToTxnPartitionResult24.cutAt version t 2) :=
  (.field (reads_int32 t.PartitionIndex) (fun _ => rfl) (fun _ => rfl) : Cuts _ 0 _ (AddPartitionsToTxnPartitionResult24.ends version t 0) (AddPartitionsToTxnPartitionResult24.cutAt version t 0) (AddPartitionsToTxnPartitionResult24.cutAt version t 1))
    |>.andThen (.field (reads_int16 t.ErrorCode) (fun _ => rfl) (fun _ => rfl) : Cuts _ (AddPartitionsToTxnPartitionResult24.ends version t 0) _ (AddPartitionsToTxnPartitionResult24.ends version t 1) (AddPartitionsToTxnPartitionResult24.cutAt version t 1) (AddPartitionsToTxnPartitionResult24.cutAt version t 2))
theorem AddPartitionsToTxnPartitionResult24.partsK (version : Int16) : Parts (AddPartitionsToTxnPartitionResult24.decodeK version) (AddPartitionsToTxnPartitionResult24.first 0) (AddPartitionsToTxnPartitionResult24.first 2) (fun r y => ((r = AddPartitionsToTxnPartitionResult24.first 0 y) ∨ (r = AddPartitionsToTxnPartitionResult24.first 1 y))) :=
  (.field Longer.int32 (fun _ => rfl) (fun _ _ => rfl) (fun _ _ => rfl) (fun _ => rfl) : Parts (KDec.field Dec.int32 0 (fun t x => { t with PartitionIndex := x })) (AddPartitionsToTxnPartitionResult24.first 0) (AddPartitionsToTxnPartitionResult24.first 1) (fun r y => r = AddPartitionsToTxnPartitionResult24.first 0 y))
    |>.andThen (.field Longer.int16 (fun _ => rfl) (fun _ _ => rfl) (fun _ _ => rfl) (fun _ => rfl) : Parts (KDec.field Dec.int16 0 (fun t x => { t with ErrorCode := x })) (AddPartitionsToTxnPartitionResult24.first 1) (AddPartitionsToTxnPartitionResult24.first 2) (fun r y => r = AddPartitionsToTxnPartitionResult24.first 1 y))
theorem AddPartitionsToTxnPartitionResult24.filled (version : Int16) : FilledStep 6 6 (AddPartitionsToTxnPartitionResult24.decode version) :=
  ((FilledStep.field .int32)
    |>.andThen (FilledStep.field .int16)).mono (by decide) (by decide)
theorem AddPartitionsToTxnPartitionResult24.part_of (r y : AddPartitionsToTxnPartitionResult24) (h : ((r = AddPartitionsToTxnPartitionResult24.first 0 y) ∨ (r = AddPartitionsToTxnPartitionResult24.first 1 y))) : AddPartitionsToTxnPartitionResult24.Part r y :=
  match h with
    | (.inl h) => ⟨0, by decide, h⟩
    | (.inr h) => ⟨1, by decide, h⟩
theorem AddPartitionsToTxnPartitionResult24.keeps_holds : AddPartitionsToTxnPartitionResult24.keeps.Holds AddPartitionsToTxnPartitionResult24.layout :=
  KeptMsg.holds AddPartitionsToTxnPartitionResult24.lawful AddPartitionsToTxnPartitionResult24.sameK (stop := fun v t => AddPartitionsToTxnPartitionResult24.ends v t 1) (c := fun v t => AddPartitionsToTxnPartitionResult24.cutAt v t 0) (fun _ _ _ => rfl) AddPartitionsToTxnPartitionResult24.cutsK (c0 := AddPartitionsToTxnPartitionResult24.first 0) rfl AddPartitionsToTxnPartitionResult24.partsK AddPartitionsToTxnPartitionResult24.part_of AddPartitionsToTxnPartitionResult24.filled (by decide) (by decide)

/-- message/messages.gen.go:6803-6823 `AddPartitionsToTxnTopicResult24.Decode`, with the receiver kept -/
def AddPartitionsToTxnTopicResult24.decodeK (version : Int16) : KDec AddPartitionsToTxnTopicResult24 :=
    KDec.field Dec.string [] (fun t x => { t with Name := x }) ;|>
    KDec.fieldStructs (AddPartitionsToTxnPartitionResult24.decodeK version {}) {} (fun t x => { t with Results := x })

/-- Where the fields of `AddPartitionsToTxnTopicResult24` end. -/
def AddPartitionsToTxnTopicResult24.ends (version : Int16) (t : AddPartitionsToTxnTopicResult24) : Nat → Nat :=
  Cut.ends 0 [Wire.string t.Name,
    Wire.array (AddPartitionsToTxnPartitionResult24.wire version) t.Results]

/-- What is left of `t` if only its first `n` bytes are there. -/
def AddPartitionsToTxnTopicResult24.cut (version : Int16) (n : Nat) (t : AddPartitionsToTxnTopicResult24) : AddPartitionsToTxnTopicResult24 :=
  { Name := Cut.field n (t.ends version 0) t.Name [],
    Results := Cut.array n (t.ends version 0) (AddPartitionsToTxnPartitionResult24.wire version) (fun x => x.seen version {}) {} t.Results }

/-- The same after the first `k` statements of `Decode`. -/
def AddPartitionsToTxnTopicResult24.cutAt (version : Int16) (t : AddPartitionsToTxnTopicResult24) (k n : Nat) : AddPartitionsToTxnTopicResult24 :=
  { Name := upto k 0 (Cut.field n (t.ends version 0) t.Name []) [],
    Results := upto k 1 (Cut.array n (t.ends version 0) (AddPartitionsToTxnPartitionResult24.wire version) (fun x => x.seen version {}) {} t.Results) none }

/-- The first `k` fields of `y`, and zeros. -/
def AddPartitionsToTxnTopicResult24.first (k : Nat) (y : AddPartitionsToTxnTopicResult24) : AddPartitionsToTxnTopicResult24 :=
  { Name := upto k 0 y.Name [],
    Results := upto k 1 y.Results none }

/-- `r` is a beginning of `y`, and zeros. -/
def AddPartitionsToTxnTopicResult24.Part (r y : AddPartitionsToTxnTopicResult24) : Prop :=
  (∃ k, k < 2 ∧ r = y.first k) ∨
    Cut.begun {} (fun t => t.Results) (fun t x => { t with Results := x }) (AddPartitionsToTxnTopicResult24.first 1) r y

/-- `AddPartitionsToTxnTopicResult24` with its receiver kept. -/
def AddPartitionsToTxnTopicResult24.keeps : KeptMsg AddPartitionsToTxnTopicResult24.type := { decode := AddPartitionsToTxnTopicResult24.decodeK, cut := AddPartitionsToTxnTopicResult24.cut, Part := AddPartitionsToTxnTopicResult24.Part }

theorem AddPartitionsToTxnTopicResult24.sameK (version : Int16) : KStep (AddPartitionsToTxnTopicResult24.decodeK version) (AddPartitionsToTxnTopicResult24.decode version) :=
  (KStep.field)
    |>.andThen (KStep.structs (fun _ => rfl) (AddPartitionsToTxnPartitionResult24.sameK version {}))
theorem AddPartitionsToTxnTopicResult24.cutsK (version : Int16) (t : AddPartitionsToTxnTopicResult24) (h : t.Fits version) :
    Cuts (AddPartitionsToTxnTopicResult24.decodeK version) 0 (AddPartitionsToTxnTopicResult24.wire version t) (AddPartitionsToTxnTopicResult24.ends version t 1) (AddPartitionsToTxnTopicResult24.cutAt version t 0) (AddPartitionsToTxnTopicResult24.cutAt version t 2) :=
  (.field (reads_string h.Name) (fun _ => rfl) (fun _ => rfl) : Cuts _ 0 _ (AddPartitionsToTxnTopicResult24.ends version t 0) (AddPartitionsToTxnTopicResult24.cutAt version t 0) (AddPartitionsToTxnTopicResult24.cutAt version t 1))
    |>.andThen (.structs (AddPartitionsToTxnPartitionResult24.sameK version {}) (fun x hx => AddPartitionsToTxnPartitionResult24.reads version x hx {}) h.Results (fun _ => rfl) (fun _ => rfl) : Cuts _ (AddPartitionsToTxnTopicResult24.ends version t 0) _ (AddPartitionsToTxnTopicResult24.ends version t 1) (AddPartitionsToTxnTopicResult24.cutAt version t 1) (AddPartitionsToTxnTopicResult24.cutAt version t 2))
theorem AddPartitionsToTxnTopicResult24.partsK (version : Int16) : Parts (AddPartitionsToTxnTopicResult24.decodeK version) (AddPartitionsToTxnTopicResult24.first 0) (AddPartitionsToTxnTopicResult24.first 2) (fun r y => ((r = AddPartitionsToTxnTopicResult24.first 0 y) ∨ (r = AddPartitionsToTxnTopicResult24.first 1 y ∨ Cut.begun {} (fun t => t.Results) (fun t x => { t with Results := x }) (AddPartitionsToTxnTopicResult24.first 1) r y))) :=
  (.field Longer.string (fun _ => rfl) (fun _ _ => rfl) (fun _ _ => rfl) (fun _ => rfl) : Parts (KDec.field Dec.string [] (fun t x => { t with Name := x })) (AddPartitionsToTxnTopicResult24.first 0) (AddPartitionsToTxnTopicResult24.first 1) (fun r y => r = AddPartitionsToTxnTopicResult24.first 0 y))
    |>.andThen (.structs (get := fun (t : AddPartitionsToTxnTopicResult24) => t.Results) ((AddPartitionsToTxnPartitionResult24.partsK version).longer {}) (fun _ => rfl) (fun _ => rfl) (fun _ _ => rfl) (fun _ _ => rfl) (fun _ _ => rfl) (fun _ => rfl) (fun _ => rfl) : Parts (KDec.fieldStructs (AddPartitionsToTxnPartitionResult24.decodeK version {}) {} (fun t x => { t with Results := x })) (AddPartitionsToTxnTopicResult24.first 1) (AddPartitionsToTxnTopicResult24.first 2) (fun r y => r = AddPartitionsToTxnTopicResult24.first 1 y ∨ Cut.begun {} (fun t => t.Results) (fun t x => { t with Results := x }) (AddPartitionsToTxnTopicResult24.first 1) r y))
theorem AddPartitionsToTxnTopicResult24.filled (version : Int16) : FilledStep 6 12884901898 (AddPartitionsToTxnTopicResult24.decode version) :=
  ((FilledStep.field .string)
    |>.andThen (FilledStep.structs (AddPartitionsToTxnPartitionResult24.filled version {}))).mono (by decide) (by decide)
theorem AddPartitionsToTxnTopicResult24.part_of (r y : AddPartitionsToTxnTopicResult24) (h : ((r = AddPartitionsToTxnTopicResult24.first 0 y) ∨ (r = AddPartitionsToTxnTopicResult24.first 1 y ∨ Cut.begun {} (fun t => t.Results) (fun t x => { t with Results := x }) (AddPartitionsToTxnTopicResult24.first 1) r y))) : AddPartitionsToTxnTopicResult24.Part r y :=
  match h with
    | (.inl h) => .inl ⟨0, by decide, h⟩
    | (.inr (.inl h)) => .inl ⟨1, by decide, h⟩
    | (.inr (.inr h)) => (.inr h)
theorem AddPartitionsToTxnTopicResult24.keeps_holds : AddPartitionsToTxnTopicResult24.keeps.Holds AddPartitionsToTxnTopicResult24.layout :=
  KeptMsg.holds AddPartitionsToTxnTopicResult24.lawful AddPartitionsToTxnTopicResult24.sameK (stop := fun v t => AddPartitionsToTxnTopicResult24.ends v t 1) (c := fun v t => AddPartitionsToTxnTopicResult24.cutAt v t 0) (fun _ _ _ => rfl) AddPartitionsToTxnTopicResult24.cutsK (c0 := AddPartitionsToTxnTopicResult24.first 0) rfl AddPartitionsToTxnTopicResult24.partsK AddPartitionsToTxnTopicResult24.part_of AddPartitionsToTxnTopicResult24.filled (by decide) (by decide)

/-- message/messages.gen.go:6753-6773 `AddPartitionsToTxnResponse.Decode`, with the receiver kept -/
def AddPartitionsToTxnResponse.decodeK (version : Int16) : KDec AddPartitionsToTxnResponse :=
    KDec.field Dec.int32 0 (fun t x => { t with ThrottleTimeMs := x }) ;|>
    KDec.fieldStructs (AddPartitionsToTxnTopicResult24.decodeK version {}) {} (fun t x => { t with Results := x })

/-- Where the fields of `AddPartitionsToTxnResponse` end. -/
def AddPartitionsToTxnResponse.ends (version : Int16) (t : AddPartitionsToTxnResponse) : Nat → Nat :=
  Cut.ends 0 [Wire.int32 t.ThrottleTimeMs,
    Wire.array (AddPartitionsToTxnTopicResult24.wire version) t.Results]

/-- What is left of `t` if only its first `n` bytes are there. -/
def AddPartitionsToTxnResponse.cut (version : Int16) (n : Nat) (t : AddPartitionsToTxnResponse) : AddPartitionsToTxnResponse :=
  { ThrottleTimeMs := Cut.field n (t.ends version 0) t.ThrottleTimeMs 0,
    Results := Cut.array n (t.ends version 0) (AddPartitionsToTxnTopicResult24.wire version) (fun x => x.seen version {}) {} t.Results }

/-- The same after the first `k` statements of `Decode`. -/
def AddPartitionsToTxnResponse.cutAt (version : Int16) (t : AddPartitionsToTxnResponse) (k n : Nat) : AddPartitionsToTxnResponse :=
  { ThrottleTimeMs := upto k 0 (Cut.field n (t.ends version 0) t.ThrottleTimeMs 0) 0,
    Results := upto k 1 (Cut.array n (t.ends version 0) (AddPartitionsToTxnTopicResult24.wire version) (fun x => x.seen version {}) {} t.Results) none }

/-- The first `k` fields of `y`, and zeros. -/
def AddPartitionsToTxnResponse.first (k : Nat) (y : AddPartitionsToTxnResponse) : AddPartitionsToTxnResponse :=
  { ThrottleTimeMs := upto k 0 y.ThrottleTimeMs 0,
    Results := upto k 1 y.Results none }

/-- `r` is a beginning of `y`, and zeros. -/
def AddPartitionsToTxnResponse.Part (r y : AddPartitionsToTxnResponse) : Prop :=
  (∃ k, k < 2 ∧ r = y.first k) ∨
    Cut.begun {} (fun t => t.Results) (fun t x => { t with Results := x }) (AddPartitionsToTxnResponse.first 1) r y

/-- `AddPartitionsToTxnResponse` with its receiver kept. -/
def AddPartitionsToTxnResponse.keeps : KeptMsg AddPartitionsToTxnResponse.type := { decode := AddPartitionsToTxnResponse.decodeK, cut := AddPartitionsToTxnResponse.cut, Part := AddPartitionsToTxnResponse.Part }

theorem AddPartitionsToTxnResponse.sameK (version : Int16) : KStep (AddPartitionsToTxnResponse.decodeK version) (AddPartitionsToTxnResponse.decode version) :=
  (KStep.field)
    |>.andThen (KStep.structs (fun _ => rfl) (AddPartitionsToTxnTopicResult24.sameK version {}))
theorem AddPartitionsToTxnResponse.cutsK (version : Int16) (t : AddPartitionsToTxnResponse) (h : t.Fits version) :
    Cuts (AddPartitionsToTxnResponse.decodeK version) 0 (AddPartitionsToTxnResponse.wire version t) (AddPartitionsToTxnResponse.ends version t 1) (AddPartitionsToTxnResponse.cutAt version t 0) (AddPartitionsToTxnResponse.cutAt version t 2) :=
  (.field (reads_int32 t.ThrottleTimeMs) (fun _ => rfl) (fun _ => rfl) : Cuts _ 0 _ (AddPartitionsToTxnResponse.ends version t 0) (AddPartitionsToTxnResponse.cutAt version t 0) (AddPartitionsToTxnResponse.cutAt version t 1))
    |>.andThen (.structs (AddPartitionsToTxnTopicResult24.sameK version {}) (fun x hx => AddPartitionsToTxnTopicResult24.reads version x hx {}) h.Results (fun _ => rfl) (fun _ => rfl) : Cuts _ (AddPartitionsToTxnResponse.ends version t 0) _ (AddPartitionsToTxnResponse.ends version t 1) (AddPartitionsToTxnResponse.cutAt version t 1) (AddPartitionsToTxnResponse.cutAt version t 2))
theorem AddPartitionsToTxnResponse.partsK (version : Int16) : Parts (AddPartitionsToTxnResponse.decodeK version) (AddPartitionsToTxnResponse.first 0) (AddPartitionsToTxnResponse.first 2) (fun r y => ((r = AddPartitionsToTxnResponse.first 0 y) ∨ (r = AddPartitionsToTxnResponse.first 1 y ∨ Cut.begun {} (fun t => t.Results) (fun t x => { t with Results := x }) (AddPartitionsToTxnResponse.first 1) r y))) :=
  (.field Longer.int32 (fun _ => rfl) (fun _ _ => rfl) (fun _ _ => rfl) (fun _ => rfl) : Parts (KDec.field Dec.int32 0 (fun t x => { t with ThrottleTimeMs := x })) (AddPartitionsToTxnResponse.first 0) (AddPartitionsToTxnResponse.first 1) (fun r y => r = AddPartitionsToTxnResponse.first 0 y))
    |>.andThen (.structs (get := fun (t : AddPartitionsToTxnResponse) => t.Results) ((AddPartitionsToTxnTopicResult24.partsK version).longer {}) (fun _ => rfl) (fun _ => rfl) (fun _ _ => rfl) (fun _ _ => rfl) (fun _ _ => rfl) (fun _ => rfl) (fun _ => rfl) : Parts (KDec.fieldStructs (AddPartitionsToTxnTopicResult24.decodeK version {}) {} (fun t x => { t with Results := x })) (AddPartitionsToTxnResponse.first 1) (AddPartitionsToTxnResponse.first 2) (fun r y => r = AddPartitionsToTxnResponse.first 1 y ∨ Cut.begun {} (fun t => t.Results) (fun t x => { t with Results := x }) (AddPartitionsToTxnResponse.first 1) r y))
theorem AddPartitionsToTxnResponse.filled (version : Int16) : FilledStep 8 25769803790 (AddPartitionsToTxnResponse.decode version) :=
  ((FilledStep.field .int32)
    |>.andThen (FilledStep.structs (AddPartitionsToTxnTopicResult24.filled version {}))).mono (by decide) (by decide)
theorem AddPartitionsToTxnResponse.part_of (r y : AddPartitionsToTxnResponse) (h : ((r = AddPartitionsToTxnResponse.first 0 y) ∨ (r = AddPartitionsToTxnResponse.first 1 y ∨ Cut.begun {} (fun t => t.Results) (fun t x => { t with Results := x }) (AddPartitionsToTxnResponse.first 1) r y))) : AddPartitionsToTxnResponse.Part r y :=
  match h with
    | (.inl h) => .inl ⟨0, by decide, h⟩
    | (.inr (.inl h)) => .inl ⟨1, by decide, h⟩
    | (.inr (.inr h)) => (.inr h)
theorem AddPartitionsToTxnResponse.keeps_holds : AddPartitionsToTxnResponse.keeps.Holds AddPartitionsToTxnResponse.layout :=
  KeptMsg.holds AddPartitionsToTxnResponse.lawful AddPartitionsToTxnResponse.sameK (stop := fun v t => AddPartitionsToTxnResponse.ends v t 1) (c := fun v t => AddPartitionsToTxnResponse.cutAt v t 0) (fun _ _ _ => rfl) AddPartitionsToTxnResponse.cutsK (c0 := AddPartitionsToTxnResponse.first 0) rfl AddPartitionsToTxnResponse.partsK AddPartitionsToTxnResponse.part_of AddPartitionsToTxnResponse.filled (by decide) (by decide)

/-- The structures of the AddPartitionsToTxn messages. -/
def keptAddPartitionsToTxn : List (Σ (M : MsgType) (_ : Layout M), KeptMsg M) :=
  [⟨AddPartitionsToTxnRequest.type, AddPartitionsToTxnRequest.layout, AddPartitionsToTxnRequest.keeps⟩,
   ⟨AddPartitionsToTxnTopic24.type, AddPartitionsToTxnTopic24.layout, AddPartitionsToTxnTopic24.keeps⟩,
   ⟨AddPartitionsToTxnResponse.type, AddPartitionsToTxnResponse.layout, AddPartitionsToTxnResponse.keeps⟩,
   ⟨AddPartitionsToTxnTopicResult24.type, AddPartitionsToTxnTopicResult24.layout, AddPartitionsToTxnTopicResult24.keeps⟩,
   ⟨AddPartitionsToTxnPartitionResult24.type, AddPartitionsToTxnPartitionResult24.layout, AddPartitionsToTxnPartitionResult24.keeps⟩]
theorem keptAddPartitionsToTxn_holds : ∀ p ∈ keptAddPartitionsToTxn, p.2.2.Holds p.2.1 := by
  unfold keptAddPartitionsToTxn
  simp only [List.forall_mem_cons]
  exact ⟨AddPartitionsToTxnRequest.keeps_holds, AddPartitionsToTxnTopic24.keeps_holds, AddPartitionsToTxnResponse.keeps_holds, AddPartitionsToTxnTopicResult24.keeps_holds, AddPartitionsToTxnPartitionResult24.keeps_holds, fun _ h => absurd h (by simp)⟩

end Kafka.Msg
