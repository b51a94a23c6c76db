import Verif.Message.KeptLemmas
import Verif.Gen.Proof.Produce
/-!
Generated by tools/gen_messages.py: what is in the Produce messages after an error.
-/
set_option linter.unusedVariables false
namespace Kafka.Msg

/-- message/messages.gen.go:164-175 `PartitionProduceData0.Decode`, with the receiver kept -/
def PartitionProduceData0.decodeK (_version : Int16) : KDec PartitionProduceData0 :=
    KDec.field Dec.int32 0 (fun t x => { t with PartitionIndex := x }) ;|>
    KDec.field Dec.bytes none (fun t x => { t with Records := x })

/-- Where the fields of `PartitionProduceData0` end. -/
def PartitionProduceData0.ends (_version : Int16) (t : PartitionProduceData0) : Nat → Nat :=
  Cut.ends 0 [Wire.int32 t.PartitionIndex,
    Wire.bytes t.Records]

/-- What is left of `t` if only its first `n` bytes are there. -/
def PartitionProduceData0.cut (version : Int16) (n : Nat) (t : PartitionProduceData0) : PartitionProduceData0 :=
  { PartitionIndex := Cut.field n (t.ends version 0) t.PartitionIndex 0,
    Records := Cut.field n (t.ends version 1) t.Records.nonNil none }

/-- The same after the first `k` statements of `Decode`. -/
def PartitionProduceData0.cutAt (version : Int16) (t : PartitionProduceData0) (k n : Nat) : PartitionProduceData0 :=
  { PartitionIndex := upto k 0 (Cut.field n (t.ends version 0) t.PartitionIndex 0) 0,
    Records := upto k 1 (Cut.field n (t.ends version 1) t.Records.nonNil none) none }

/-- The first `k` fields of `y`, and zeros. -/
def PartitionProduceData0.first (k : Nat) (y : PartitionProduceData0) : PartitionProduceData0 :=
  { PartitionIndex := upto k 0 y.PartitionIndex 0,
    Records := upto k 1 y.Records none }

/-- `r` is a beginning of `y`, and zeros. -/
def PartitionProduceData0.Part (r y : PartitionProduceData0) : Prop :=
  (∃ k, k < 2 ∧ r = y.first k)

/-- `PartitionProduceData0` with its receiver kept. -/
def PartitionProduceData0.keeps : KeptMsg PartitionProduceData0.type := { decode := PartitionProduceData0.decodeK, cut := PartitionProduceData0.cut, Part := PartitionProduceData0.Part }

theorem PartitionProduceData0.sameK (version : Int16) : KStep (PartitionProduceData0.decodeK version) (PartitionProduceData0.decode version) :=
  (KStep.field)
    |>.andThen (KStep.field)
theorem PartitionProduceData0.cutsK (version : Int16) (t : PartitionProduceData0) (h : t.Fits version) :
    Cuts (PartitionProduceData0.decodeK version) 0 (PartitionProduceData0.wire version t) (PartitionProduceData0.ends version t 1) (PartitionProduceData0.cutAt version t 0) (PartitionProduceData0.cutAt version t 2) :=
  (.field (reads_int32 t.PartitionIndex) (fun _ => rfl) (fun _ => rfl) : Cuts _ 0 _ (PartitionProduceData0.ends version t 0) (PartitionProduceData0.cutAt version t 0) (PartitionProduceData0.cutAt version t 1))
    |>.andThen (.field (reads_bytes h.Records) (fun _ => rfl) (fun _ => rfl) : Cuts _ (PartitionProduceData0.ends version t 0) _ (PartitionProduceData0.ends version t 1) (PartitionProduceData0.cutAt version t 1) (PartitionProduceData0.cutAt version t 2))
theorem PartitionProduceData0.partsK (version : Int16) : Parts (PartitionProduceData0.decodeK version) (PartitionProduceData0.first 0) (PartitionProduceData0.first 2) (fun r y => ((r = PartitionProduceData0.first 0 y) ∨ (r = PartitionProduceData0.first 1 y))) :=
  (.field Longer.int32 (fun _ => rfl) (fun _ _ => rfl) (fun _ _ => rfl) (fun _ => rfl) : Parts (KDec.field Dec.int32 0 (fun t x => { t with PartitionIndex := x })) (PartitionProduceData0.first 0) (PartitionProduceData0.first 1) (fun r y => r = PartitionProduceData0.first 0 y))
    |>.andThen (.field Longer.bytes (fun _ => rfl) (fun _ _ => rfl) (fun _ _ => rfl) (fun _ => rfl) : Parts (KDec.field Dec.bytes none (fun t x => { t with Records := x })) (PartitionProduceData0.first 1) (PartitionProduceData0.first 2) (fun r y => r = PartitionProduceData0.first 1 y))
theorem PartitionProduceData0.filled (version : Int16) : FilledStep 8 2147483652 (PartitionProduceData0.decode version) :=
  ((FilledStep.field .int32)
    |>.andThen (FilledStep.field .bytes)).mono (by decide) (by decide)
theorem PartitionProduceData0.part_of (r y : PartitionProduceData0) (h : ((r = PartitionProduceData0.first 0 y) ∨ (r = PartitionProduceData0.first 1 y))) : PartitionProduceData0.Part r y :=
  match h with
    | (.inl h) => ⟨0, by decide, h⟩
    | (.inr h) => ⟨1, by decide, h⟩
theorem PartitionProduceData0.keeps_holds : PartitionProduceData0.keeps.Holds PartitionProduceData0.layout :=
  KeptMsg.holds PartitionProduceData0.lawful PartitionProduceData0.sameK (stop := fun v t => PartitionProduceData0.ends v t 1) (c := fun v t => PartitionProduceData0.cutAt v t 0) (fun _ _ _ => rfl) PartitionProduceData0.cutsK (c0 := PartitionProduceData0.first 0) rfl PartitionProduceData0.partsK PartitionProduceData0.part_of PartitionProduceData0.filled (by decide) (by decide)

/-- message/messages.gen.go:122-142 `TopicProduceData0.Decode`, with the receiver kept -/
def TopicProduceData0.decodeK (version : Int16) : KDec TopicProduceData0 :=
    KDec.field Dec.string [] (fun t x => { t with Name := x }) ;|>
    KDec.fieldStructs (PartitionProduceData0.decodeK version {}) {} (fun t x => { t with Partitions := x })

/-- Where the fields of `TopicProduceData0` end. -/
def TopicProduceData0.ends (version : Int16) (t : TopicProduceData0) : Nat → Nat :=
  Cut.ends 0 [Wire.string t.Name,
    Wire.array (PartitionProduceData0.wire version) t.Partitions]

/-- What is left of `t` if only its first `n` bytes are there. -/
def TopicProduceData0.cut (version : Int16) (n : Nat) (t : TopicProduceData0) : TopicProduceData0 :=
  { Name := Cut.field n (t.ends version 0) t.Name [],
    Partitions := Cut.array n (t.ends version 0) (PartitionProduceData0.wire version) (fun x => x.seen version {}) {} t.Partitions }

/-- The same after the first `k` statements of `Decode`. -/
def TopicProduceData0.cutAt (version : Int16) (t : TopicProduceData0) (k n : Nat) : TopicProduceData0 :=
  { Name := upto k 0 (Cut.field n (t.ends version 0) t.Name []) [],
    Partitions := upto k 1 (Cut.array n (t.ends version 0) (PartitionProduceData0.wire version) (fun x => x.seen version {}) {} t.Partitions) none }

/-- The first `k` fields of `y`, and zeros. -/
def TopicProduceData0.first (k : Nat) (y : TopicProduceData0) : TopicProduceData0 :=
  { Name := upto k 0 y.Name [],
    Partitions := upto k 1 y.Partitions none }

/-- `r` is a beginning of `y`, and zeros. -/
def TopicProduceData0.Part (r y : TopicProduceData0) : Prop :=
  (∃ k, k < 2 ∧ r = y.first k) ∨
    Cut.begun {} (fun t => t.Partitions) (fun t x => { t with Partitions := x }) (TopicProduceData0.first 1) r y

/-- `TopicProduceData0` with its receiver kept. -/
def TopicProduceData0.keeps : KeptMsg TopicProduceData0.type := { decode := TopicProduceData0.decodeK, cut := TopicProduceData0.cut, Part := TopicProduceData0.Part }

theorem TopicProduceData0.sameK (version : Int16) : KStep (TopicProduceData0.decodeK version) (TopicProduceData0.decode version) :=
  (KStep.field)
    |>.andThen (KStep.structs (fun _ => rfl) (PartitionProduceData0.sameK version {}))
theorem TopicProduceData0.cutsK (version : Int16) (t : TopicProduceData0) (h : t.Fits version) :
    Cuts (TopicProduceData0.decodeK version) 0 (TopicProduceData0.wire version t) (TopicProduceData0.ends version t 1) (TopicProduceData0.cutAt version t 0) (TopicProduceData0.cutAt version t 2) :=
  (.field (reads_string h.Name) (fun _ => rfl) (fun _ => rfl) : Cuts _ 0 _ (TopicProduceData0.ends version t 0) (TopicProduceData0.cutAt version t 0) (TopicProduceData0.cutAt version t 1))
    |>.andThen (.structs (PartitionProduceData0.sameK version {}) (fun x hx => PartitionProduceData0.reads version x hx {}) h.Partitions (fun _ => rfl) (fun _ => rfl) : Cuts _ (TopicProduceData0.ends version t 0) _ (TopicProduceData0.ends version t 1) (TopicProduceData0.cutAt version t 1) (TopicProduceData0.cutAt version t 2))
theorem TopicProduceData0.partsK (version : Int16) : Parts (TopicProduceData0.decodeK version) (TopicProduceData0.first 0) (TopicProduceData0.first 2) (fun r y => ((r = TopicProduceData0.first 0 y) ∨ (r = TopicProduceData0.first 1 y ∨ Cut.begun {} (fun t => t.Partitions) (fun t x => { t with Partitions := x }) (TopicProduceData0.first 1) r y))) :=
  (.field Longer.string (fun _ => rfl) (fun _ _ => rfl) (fun _ _ => rfl) (fun _ => rfl) : Parts (KDec.field Dec.string [] (fun t x => { t with Name := x })) (TopicProduceData0.first 0) (TopicProduceData0.first 1) (fun r y => r = TopicProduceData0.first 0 y))
    |>.andThen (.structs (get := fun (t : TopicProduceData0) => t.Partitions) ((PartitionProduceData0.partsK version).longer {}) (fun _ => rfl) (fun _ => rfl) (fun _ _ => rfl) (fun _ _ => rfl) (fun _ _ => rfl) (fun _ => rfl) (fun _ => rfl) : Parts (KDec.fieldStructs (PartitionProduceData0.decodeK version {}) {} (fun t x => { t with Partitions := x })) (TopicProduceData0.first 1) (TopicProduceData0.first 2) (fun r y => r = TopicProduceData0.first 1 y ∨ Cut.begun {} (fun t => t.Partitions) (fun t x => { t with Partitions := x }) (TopicProduceData0.first 1) r y))
theorem TopicProduceData0.filled (version : Int16) : FilledStep 6 19327352840 (TopicProduceData0.decode version) :=
  ((FilledStep.field .string)
    |>.andThen (FilledStep.structs (PartitionProduceData0.filled version {}))).mono (by decide) (by decide)
theorem TopicProduceData0.part_of (r y : TopicProduceData0) (h : ((r = TopicProduceData0.first 0 y) ∨ (r = TopicProduceData0.first 1 y ∨ Cut.begun {} (fun t => t.Partitions) (fun t x => { t with Partitions := x }) (TopicProduceData0.first 1) r y))) : TopicProduceData0.Part r y :=
  match h with
    | (.inl h) => .inl ⟨0, by decide, h⟩
    | (.inr (.inl h)) => .inl ⟨1, by decide, h⟩
    | (.inr (.inr h)) => (.inr h)
theorem TopicProduceData0.keeps_holds : TopicProduceData0.keeps.Holds TopicProduceData0.layout :=
  KeptMsg.holds TopicProduceData0.lawful TopicProduceData0.sameK (stop := fun v t => TopicProduceData0.ends v t 1) (c := fun v t => TopicProduceData0.cutAt v t 0) (fun _ _ _ => rfl) TopicProduceData0.cutsK (c0 := TopicProduceData0.first 0) rfl TopicProduceData0.partsK TopicProduceData0.part_of TopicProduceData0.filled (by decide) (by decide)

/-- message/messages.gen.go:62-92 `ProduceRequest.Decode`, with the receiver kept -/
def ProduceRequest.decodeK (version : Int16) : KDec ProduceRequest :=
    KDec.onlyIf (version ≥ 3) (KDec.field Dec.string [] (fun t x => { t with TransactionalId := x })) ;|>
    KDec.field Dec.int16 0 (fun t x => { t with Acks := x }) ;|>
    KDec.field Dec.int32 0 (fun t x => { t with TimeoutMs := x }) ;|>
    KDec.fieldStructs (TopicProduceData0.decodeK version {}) {} (fun t x => { t with Topics := x })

/-- Where the fields of `ProduceRequest` end. -/
def ProduceRequest.ends (version : Int16) (t : ProduceRequest) : Nat → Nat :=
  Cut.ends 0 [Wire.when (version ≥ 3) (Wire.string t.TransactionalId),
    Wire.int16 t.Acks,
    Wire.int32 t.TimeoutMs,
    Wire.array (TopicProduceData0.wire version) t.Topics]

/-- What is left of `t` if only its first `n` bytes are there. -/
def ProduceRequest.cut (version : Int16) (n : Nat) (t : ProduceRequest) : ProduceRequest :=
  { TransactionalId := Cut.gate (version ≥ 3) (Cut.field n (t.ends version 0) t.TransactionalId []) [],
    Acks := Cut.field n (t.ends version 1) t.Acks 0,
    TimeoutMs := Cut.field n (t.ends version 2) t.TimeoutMs 0,
    Topics := Cut.array n (t.ends version 2) (TopicProduceData0.wire version) (fun x => x.seen version {}) {} t.Topics }

/-- The same after the first `k` statements of `Decode`. -/
def ProduceRequest.cutAt (version : Int16) (t : ProduceRequest) (k n : Nat) : ProduceRequest :=
  { TransactionalId := upto k 0 (Cut.gate (version ≥ 3) (Cut.field n (t.ends version 0) t.TransactionalId []) []) [],
    Acks := upto k 1 (Cut.field n (t.ends version 1) t.Acks 0) 0,
    TimeoutMs := upto k 2 (Cut.field n (t.ends version 2) t.TimeoutMs 0) 0,
    Topics := upto k 3 (Cut.array n (t.ends version 2) (TopicProduceData0.wire version) (fun x => x.seen version {}) {} t.Topics) none }

/-- The first `k` fields of `y`, and zeros. -/
def ProduceRequest.first (k : Nat) (y : ProduceRequest) : ProduceRequest :=
  { TransactionalId := upto k 0 y.TransactionalId [],
    Acks := upto k 1 y.Acks 0,
    TimeoutMs := upto k 2 y.TimeoutMs 0,
    Topics := upto k 3 y.Topics none }

/-- `r` is a beginning of `y`, and zeros. -/
def ProduceRequest.Part (r y : ProduceRequest) : Prop :=
  (∃ k, k < 4 ∧ r = y.first k) ∨
    Cut.begun {} (fun t => t.Topics) (fun t x => { t with Topics := x }) (ProduceRequest.first 3) r y

/-- `ProduceRequest` with its receiver kept. -/
def ProduceRequest.keeps : KeptMsg ProduceRequest.type := { decode := ProduceRequest.decodeK, cut := ProduceRequest.cut, Part := ProduceRequest.Part }

theorem ProduceRequest.sameK (version : Int16) : KStep (ProduceRequest.decodeK version) (ProduceRequest.decode version) :=
  (KStep.onlyIf (KStep.field))
    |>.andThen (KStep.field)
    |>.andThen (KStep.field)
    |>.andThen (KStep.structs (fun _ => rfl) (TopicProduceData0.sameK version {}))
theorem ProduceRequest.cutsK (version : Int16) (t : ProduceRequest) (h : t.Fits version) :
    Cuts (ProduceRequest.decodeK version) 0 (ProduceRequest.wire version t) (ProduceRequest.ends version t 3) (ProduceRequest.cutAt version t 0) (ProduceRequest.cutAt version t 4) :=
  (.optField (fun hc => reads_string (h.TransactionalId hc)) (fun _ => rfl) (fun _ => rfl) : Cuts _ 0 _ (ProduceRequest.ends version t 0) (ProduceRequest.cutAt version t 0) (ProduceRequest.cutAt version t 1))
    |>.andThen (.field (reads_int16 t.Acks) (fun _ => rfl) (fun _ => rfl) : Cuts _ (ProduceRequest.ends version t 0) _ (ProduceRequest.ends version t 1) (ProduceRequest.cutAt version t 1) (ProduceRequest.cutAt version t 2))
    |>.andThen (.field (reads_int32 t.TimeoutMs) (fun _ => rfl) (fun _ => rfl) : Cuts _ (ProduceRequest.ends version t 1) _ (ProduceRequest.ends version t 2) (ProduceRequest.cutAt version t 2) (ProduceRequest.cutAt version t 3))
    |>.andThen (.structs (TopicProduceData0.sameK version {}) (fun x hx => TopicProduceData0.reads version x hx {}) h.Topics (fun _ => rfl) (fun _ => rfl) : Cuts _ (ProduceRequest.ends version t 2) _ (ProduceRequest.ends version t 3) (ProduceRequest.cutAt version t 3) (ProduceRequest.cutAt version t 4))
theorem ProduceRequest.partsK (version : Int16) : Parts (ProduceRequest.decodeK version) (ProduceRequest.first 0) (ProduceRequest.first 4) (fun r y => ((((r = ProduceRequest.first 0 y) ∨ (r = ProduceRequest.first 1 y)) ∨ (r = ProduceRequest.first 2 y)) ∨ (r = ProduceRequest.first 3 y ∨ Cut.begun {} (fun t => t.Topics) (fun t x => { t with Topics := x }) (ProduceRequest.first 3) r y))) :=
  (.onlyIf (.field Longer.string (fun _ => rfl) (fun _ _ => rfl) (fun _ _ => rfl) (fun _ => rfl)) (fun _ => rfl) : Parts (KDec.onlyIf (version ≥ 3) (KDec.field Dec.string [] (fun t x => { t with TransactionalId := x }))) (ProduceRequest.first 0) (ProduceRequest.first 1) (fun r y => r = ProduceRequest.first 0 y))
    |>.andThen (.field Longer.int16 (fun _ => rfl) (fun _ _ => rfl) (fun _ _ => rfl) (fun _ => rfl) : Parts (KDec.field Dec.int16 0 (fun t x => { t with Acks := x })) (ProduceRequest.first 1) (ProduceRequest.first 2) (fun r y => r = ProduceRequest.first 1 y))
    |>.andThen (.field Longer.int32 (fun _ => rfl) (fun _ _ => rfl) (fun _ _ => rfl) (fun _ => rfl) : Parts (KDec.field Dec.int32 0 (fun t x => { t with TimeoutMs := x })) (ProduceRequest.first 2) (ProduceRequest.first 3) (fun r y => r = ProduceRequest.first 2 y))
    |>.andThen (.structs (get := fun (t : ProduceRequest) => t.Topics) ((TopicProduceData0.partsK version).longer {}) (fun _ => rfl) (fun _ => rfl) (fun _ _ => rfl) (fun _ _ => rfl) (fun _ _ => rfl) (fun _ => rfl) (fun _ => rfl) : Parts (KDec.fieldStructs (TopicProduceData0.decodeK version {}) {} (fun t x => { t with Topics := x })) (ProduceRequest.first 3) (ProduceRequest.first 4) (fun r y => r = ProduceRequest.first 3 y ∨ Cut.begun {} (fun t => t.Topics) (fun t x => { t with Topics := x }) (ProduceRequest.first 3) r y))
theorem ProduceRequest.filled (version : Int16) : FilledStep 12 32212254732 (ProduceRequest.decode version) :=
  ((FilledStep.onlyIf (FilledStep.field .string))
    |>.andThen (FilledStep.field .int16)
    |>.andThen (FilledStep.field .int32)
    |>.andThen (FilledStep.structs (TopicProduceData0.filled version {}))).mono (by decide) (by decide)
theorem ProduceRequest.part_of (r y : ProduceRequest) (h : ((((r = ProduceRequest.first 0 y) ∨ (r = ProduceRequest.first 1 y)) ∨ (r = ProduceRequest.first 2 y)) ∨ (r = ProduceRequest.first 3 y ∨ Cut.begun {} (fun t => t.Topics) (fun t x => { t with Topics := x }) (ProduceRequest.first 3) r y))) : ProduceRequest.Part r y :=
  match h with
    | (.inl (.inl (.inl h))) => .inl ⟨0, by decide, h⟩
    | (.inl (.inl (.inr h))) => .inl ⟨1, by decide, h⟩
    | (.inl (.inr h)) => .inl ⟨2, by decide, h⟩
    | (.inr (.inl h)) => .inl ⟨3, by decide, h⟩
    | (.inr (.inr h)) => (.inr h)
theorem ProduceRequest.keeps_holds : ProduceRequest.keeps.Holds ProduceRequest.layout :=
  KeptMsg.holds ProduceRequest.lawful ProduceRequest.sameK (stop := fun v t => ProduceRequest.ends v t 3) (c := fun v t => ProduceRequest.cutAt v t 0) (fun _ _ _ => rfl) ProduceRequest.cutsK (c0 := ProduceRequest.first 0) rfl ProduceRequest.partsK ProduceRequest.part_of ProduceRequest.filled (by decide) (by decide)

/-- message/messages.gen.go:421-436 `BatchIndexAndErrorMessage0.Decode`, with the receiver kept -/
def BatchIndexAndErrorMessage0.decodeK (version : Int16) : KDec BatchIndexAndErrorMessage0 :=
    KDec.onlyIf (version ≥ 8) (KDec.field Dec.int32 0 (fun t x => { t with BatchIndex := x })) ;|>
    KDec.onlyIf (version ≥ 8) (KDec.field Dec.string [] (fun t x => { t with BatchIndexErrorMessage := x }))

/-- Where the fields of `BatchIndexAndErrorMessage0` end. -/
def BatchIndexAndErrorMessage0.ends (version : Int16) (t : BatchIndexAndErrorMessage0) : Nat → Nat :=
  Cut.ends 0 [Wire.when (version ≥ 8) (Wire.int32 t.BatchIndex),
    Wire.when (version ≥ 8) (Wire.string t.BatchIndexErrorMessage)]

/-- What is left of `t` if only its first `n` bytes are there. -/
def BatchIndexAndErrorMessage0.cut (version : Int16) (n : Nat) (t : BatchIndexAndErrorMessage0) : BatchIndexAndErrorMessage0 :=
  { BatchIndex := Cut.gate (version ≥ 8) (Cut.field n (t.ends version 0) t.BatchIndex 0) 0,
    BatchIndexErrorMessage := Cut.gate (version ≥ 8) (Cut.field n (t.ends version 1) t.BatchIndexErrorMessage []) [] }

/-- The same after the first `k` statements of `Decode`. -/
def BatchIndexAndErrorMessage0.cutAt (version : Int16) (t : BatchIndexAndErrorMessage0) (k n : Nat) : BatchIndexAndErrorMessage0 :=
  { BatchIndex := upto k 0 (Cut.gate (version ≥ 8) (Cut.field n (t.ends version 0) t.BatchIndex 0) 0) 0,
    BatchIndexErrorMessage := upto k 1 (Cut.gate (version ≥ 8) (Cut.field n (t.ends version 1) t.BatchIndexErrorMessage []) []) [] }

/-- The first `k` fields of `y`, and zeros. -/
def BatchIndexAndErrorMessage0.first (k : Nat) (y : BatchIndexAndErrorMessage0) : BatchIndexAndErrorMessage0 :=
  { BatchIndex := upto k 0 y.BatchIndex 0,
    BatchIndexErrorMessage := upto k 1 y.BatchIndexErrorMessage [] }

/-- `r` is a beginning of `y`, and zeros. -/
def BatchIndexAndErrorMessage0.Part (r y : BatchIndexAndErrorMessage0) : Prop :=
  (∃ k, k < 2 ∧ r = y.first k)

/-- `BatchIndexAndErrorMessage0` with its receiver kept. -/
def BatchIndexAndErrorMessage0.keeps : KeptMsg BatchIndexAndErrorMessage0.type := { decode := BatchIndexAndErrorMessage0.decodeK, cut := BatchIndexAndErrorMessage0.cut, Part := BatchIndexAndErrorMessage0.Part }

theorem BatchIndexAndErrorMessage0.sameK (version : Int16) : KStep (BatchIndexAndErrorMessage0.decodeK version) (BatchIndexAndErrorMessage0.decode version) :=
  (KStep.onlyIf (KStep.field))
    |>.andThen (KStep.onlyIf (KStep.field))
theorem BatchIndexAndErrorMessage0.cutsK (version : Int16) (t : BatchIndexAndErrorMessage0) (h : t.Fits version) :
    Cuts (BatchIndexAndErrorMessage0.decodeK version) 0 (BatchIndexAndErrorMessage0.wire version t) (BatchIndexAndErrorMessage0.ends version t 1) (BatchIndexAndErrorMessage0.cutAt version t 0) (BatchIndexAndErrorMessage0.cutAt version t 2) :=
  (.optField (fun _ => reads_int32 t.BatchIndex) (fun _ => rfl) (fun _ => rfl) : Cuts _ 0 _ (BatchIndexAndErrorMessage0.ends version t 0) (BatchIndexAndErrorMessage0.cutAt version t 0) (BatchIndexAndErrorMessage0.cutAt version t 1))
    |>.andThen (.optField (fun hc => reads_string (h.BatchIndexErrorMessage hc)) (fun _ => rfl) (fun _ => rfl) : Cuts _ (BatchIndexAndErrorMessage0.ends version t 0) _ (BatchIndexAndErrorMessage0.ends version t 1) (BatchIndexAndErrorMessage0.cutAt version t 1) (BatchIndexAndErrorMessage0.cutAt version t 2))
theorem BatchIndexAndErrorMessage0.partsK (version : Int16) : Parts (BatchIndexAndErrorMessage0.decodeK version) (BatchIndexAndErrorMessage0.first 0) (BatchIndexAndErrorMessage0.first 2) (fun r y => ((r = BatchIndexAndErrorMessage0.first 0 y) ∨ (r = BatchIndexAndErrorMessage0.first 1 y))) :=
  (.onlyIf (.field Longer.int32 (fun _ => rfl) (fun _ _ => rfl) (fun _ _ => rfl) (fun _ => rfl)) (fun _ => rfl) : Parts (KDec.onlyIf (version ≥ 8) (KDec.field Dec.int32 0 (fun t x => { t with BatchIndex := x }))) (BatchIndexAndErrorMessage0.first 0) (BatchIndexAndErrorMessage0.first 1) (fun r y => r = BatchIndexAndErrorMessage0.first 0 y))
    |>.andThen (.onlyIf (.field Longer.string (fun _ => rfl) (fun _ _ => rfl) (fun _ _ => rfl) (fun _ => rfl)) (fun _ => rfl) : Parts (KDec.onlyIf (version ≥ 8) (KDec.field Dec.string [] (fun t x => { t with BatchIndexErrorMessage := x }))) (BatchIndexAndErrorMessage0.first 1) (BatchIndexAndErrorMessage0.first 2) (fun r y => r = BatchIndexAndErrorMessage0.first 1 y))
theorem BatchIndexAndErrorMessage0.filled (version : Int16) : FilledStep 6 32770 (BatchIndexAndErrorMessage0.decode version) :=
  ((FilledStep.onlyIf (FilledStep.field .int32))
    |>.andThen (FilledStep.onlyIf (FilledStep.field .string))).mono (by decide) (by decide)
theorem BatchIndexAndErrorMessage0.part_of (r y : BatchIndexAndErrorMessage0) (h : ((r = BatchIndexAndErrorMessage0.first 0 y) ∨ (r = BatchIndexAndErrorMessage0.first 1 y))) : BatchIndexAndErrorMessage0.Part r y :=
  match h with
    | (.inl h) => ⟨0, by decide, h⟩
    | (.inr h) => ⟨1, by decide, h⟩
theorem BatchIndexAndErrorMessage0.keeps_holds : BatchIndexAndErrorMessage0.keeps.Holds BatchIndexAndErrorMessage0.layout :=
  KeptMsg.holds BatchIndexAndErrorMessage0.lawful BatchIndexAndErrorMessage0.sameK (stop := fun v t => BatchIndexAndErrorMessage0.ends v t 1) (c := fun v t => BatchIndexAndErrorMessage0.cutAt v t 0) (fun _ _ _ => rfl) BatchIndexAndErrorMessage0.cutsK (c0 := BatchIndexAndErrorMessage0.first 0) rfl BatchIndexAndErrorMessage0.partsK BatchIndexAndErrorMessage0.part_of BatchIndexAndErrorMessage0.filled (by decide) (by decide)

/-- message/messages.gen.go:343-391 `PartitionProduceResponse0.Decode`, with the receiver kept -/
def PartitionProduceResponse0.decodeK (version : Int16) : KDec PartitionProduceResponse0 :=
    KDec.field Dec.int32 0 (fun t x => { t with PartitionIndex := x }) ;|>
    KDec.field Dec.int16 0 (fun t x => { t with ErrorCode := x }) ;|>
    KDec.field Dec.int64 0 (fun t x => { t with BaseOffset := x }) ;|>
    KDec.onlyIf (version ≥ 2) (KDec.field Dec.int64 0 (fun t x => { t with LogAppendTimeMs := x })) ;|>
    KDec.onlyIf (version ≥ 5) (KDec.field Dec.int64 0 (fun t x => { t with LogStartOffset := x })) ;|>
    KDec.onlyIf (version ≥ 8) (KDec.fieldStructs (BatchIndexAndErrorMessage0.decodeK version {}) {} (fun t x => { t with RecordErrors := x })) ;|>
    KDec.onlyIf (version ≥ 8) (KDec.field Dec.string [] (fun t x => { t with ErrorMessage := x }))

/-- Where the fields of `PartitionProduceResponse0` end. -/
def PartitionProduceResponse0.ends (version : Int16) (t : PartitionProduceResponse0) : Nat → Nat :=
  Cut.ends 0 [Wire.int32 t.PartitionIndex,
    Wire.int16 t.ErrorCode,
    Wire.int64 t.BaseOffset,
    Wire.when (version ≥ 2) (Wire.int64 t.LogAppendTimeMs),
    Wire.when (version ≥ 5) (Wire.int64 t.LogStartOffset),
    Wire.when (version ≥ 8) (Wire.array (BatchIndexAndErrorMessage0.wire version) t.RecordErrors),
    Wire.when (version ≥ 8) (Wire.string t.ErrorMessage)]

/-- What is left of `t` if only its first `n` bytes are there. -/
def PartitionProduceResponse0.cut (version : Int16) (n : Nat) (t : PartitionProduceResponse0) : PartitionProduceResponse0 :=
  { PartitionIndex := Cut.field n (t.ends version 0) t.PartitionIndex 0,
    ErrorCode := Cut.field n (t.ends version 1) t.ErrorCode 0,
    BaseOffset := Cut.field n (t.ends version 2) t.BaseOffset 0,
    LogAppendTimeMs := Cut.gate (version ≥ 2) (Cut.field n (t.ends version 3) t.LogAppendTimeMs 0) 0,
    LogStartOffset := Cut.gate (version ≥ 5) (Cut.field n (t.ends version 4) t.LogStartOffset 0) 0,
    RecordErrors := Cut.gate (version ≥ 8) (Cut.array n (t.ends version 4) (BatchIndexAndErrorMessage0.wire version) (fun x => x.seen version {}) {} t.RecordErrors) none,
    ErrorMessage := Cut.gate (version ≥ 8) (Cut.field n (t.ends version 6) t.ErrorMessage []) [] }

/-- The same after the first `k` statements of `Decode`. -/
def PartitionProduceResponse0.cutAt (version : Int16) (t : PartitionProduceResponse0) (k n : Nat) : PartitionProduceResponse0 :=
  { PartitionIndex := upto k 0 (Cut.field n (t.ends version 0) t.PartitionIndex 0) 0,
    ErrorCode := upto k 1 (Cut.field n (t.ends version 1) t.ErrorCode 0) 0,
    BaseOffset := upto k 2 (Cut.field n (t.ends version 2) t.BaseOffset 0) 0,
    LogAppendTimeMs := upto k 3 (Cut.gate (version ≥ 2) (Cut.field n (t.ends version 3) t.LogAppendTimeMs 0) 0) 0,
    LogStartOffset := upto k 4 (Cut.gate (version ≥ 5) (Cut.field n (t.ends version 4) t.LogStartOffset 0) 0) 0,
    RecordErrors := upto k 5 (Cut.gate (version ≥ 8) (Cut.array n (t.ends version 4) (BatchIndexAndErrorMessage0.wire version) (fun x => x.seen version {}) {} t.RecordErrors) none) none,
    ErrorMessage := upto k 6 (Cut.gate (version ≥ 8) (Cut.field n (t.ends version 6) t.ErrorMessage []) []) [] }

/-- The first `k` fields of `y`, and zeros. -/
def PartitionProduceResponse0.first (k : Nat) (y : PartitionProduceResponse0) : PartitionProduceResponse0 :=
  { PartitionIndex := upto k 0 y.PartitionIndex 0,
    ErrorCode := upto k 1 y.ErrorCode 0,
    BaseOffset := upto k 2 y.BaseOffset 0,
    LogAppendTimeMs := upto k 3 y.LogAppendTimeMs 0,
    LogStartOffset := upto k 4 y.LogStartOffset 0,
    RecordErrors := upto k 5 y.RecordErrors none,
    ErrorMessage := upto k 6 y.ErrorMessage [] }

/-- `r` is a beginning of `y`, and zeros. -/
def PartitionProduceResponse0.Part (r y : PartitionProduceResponse0) : Prop :=
  (∃ k, k < 7 ∧ r = y.first k) ∨
    Cut.begun {} (fun t => t.RecordErrors) (fun t x => { t with RecordErrors := x }) (PartitionProduceResponse0.first 5) r y

/-- `PartitionProduceResponse0` with its receiver kept. -/
def PartitionProduceResponse0.keeps : KeptMsg PartitionProduceResponse0.type := { decode := PartitionProduceResponse0.decodeK, cut := PartitionProduceResponse0.cut, Part := PartitionProduceResponse0.Part }

theorem PartitionProduceResponse0.sameK (version : Int16) : KStep (PartitionProduceResponse0.decodeK version) (PartitionProduceResponse0.decode version) :=
  (KStep.field)
    |>.andThen (KStep.field)
    |>.andThen (KStep.field)
    |>.andThen (KStep.onlyIf (KStep.field))
    |>.andThen (KStep.onlyIf (KStep.field))
    |>.andThen (KStep.onlyIf (KStep.structs (fun _ => rfl) (BatchIndexAndErrorMessage0.sameK version {})))
    |>.andThen (KStep.onlyIf (KStep.field))
theorem PartitionProduceResponse0.cutsK (version : Int16) (t : PartitionProduceResponse0) (h : t.Fits version) :
    Cuts (PartitionProduceResponse0.decodeK version) 0 (PartitionProduceResponse0.wire version t) (PartitionProduceResponse0.ends version t 6) (PartitionProduceResponse0.cutAt version t 0) (PartitionProduceResponse0.cutAt version t 7) :=
  (.field (reads_int32 t.PartitionIndex) (fun _ => rfl) (fun _ => rfl) : Cuts _ 0 _ (PartitionProduceResponse0.ends version t 0) (PartitionProduceResponse0.cutAt version t 0) (PartitionProduceResponse0.cutAt version t 1))
    |>.andThen (.field (reads_int16 t.ErrorCode) (fun _ => rfl) (fun _ => rfl) : Cuts _ (PartitionProduceResponse0.ends version t 0) _ (PartitionProduceResponse0.ends version t 1) (PartitionProduceResponse0.cutAt version t 1) (PartitionProduceResponse0.cutAt version t 2))
    |>.andThen (.field (reads_int64 t.BaseOffset) (fun _ => rfl) (fun _ => rfl) : Cuts _ (PartitionProduceResponse0.ends version t 1) _ (PartitionProduceResponse0.ends version t 2) (PartitionProduceResponse0.cutAt version t 2) (PartitionProduceResponse0.cutAt version t 3))
    |>.andThen (.optField (fun _ => reads_int64 t.LogAppendTimeMs) (fun _ => rfl) (fun _ => rfl) : Cuts _ (PartitionProduceResponse0.ends version t 2) _ (PartitionProduceResponse0.ends version t 3) (PartitionProduceResponse0.cutAt version t 3) (PartitionProduceResponse0.cutAt version t 4))
    |>.andThen (.optField (fun _ => reads_int64 t.LogStartOffset) (fun _ => rfl) (fun _ => rfl) : Cuts _ (PartitionProduceResponse0.ends version t 3) _ (PartitionProduceResponse0.ends version t 4) (PartitionProduceResponse0.cutAt version t 4) (PartitionProduceResponse0.cutAt version t 5))
    |>.andThen (.optStructs (BatchIndexAndErrorMessage0.sameK version {}) (fun x hx => BatchIndexAndErrorMessage0.reads version x hx {}) h.RecordErrors (fun _ => rfl) (fun _ => rfl) : Cuts _ (PartitionProduceResponse0.ends version t 4) _ (PartitionProduceResponse0.ends version t 5) (PartitionProduceResponse0.cutAt version t 5) (PartitionProduceResponse0.cutAt version t 6))
    |>.andThen (.optField (fun hc => reads_string (h.ErrorMessage hc)) (fun _ => rfl) (fun _ => rfl) : Cuts _ (PartitionProduceResponse0.ends version t 5) _ (PartitionProduceResponse0.ends version t 6) (PartitionProduceResponse0.cutAt version t 6) (PartitionProduceResponse0.cutAt version t 7))
theorem PartitionProduceResponse0.partsK (version : Int16) : Parts (PartitionProduceResponse0.decodeK version) (PartitionProduceResponse0.first 0) (PartitionProduceResponse0.first 7) (fun r y => (((((((r = PartitionProduceResponse0.first 0 y) ∨ (r = PartitionProduceResponse0.first 1 y)) ∨ (r = PartitionProduceResponse0.first 2 y)) ∨ (r = PartitionProduceResponse0.first 3 y)) ∨ (r = PartitionProduceResponse0.first 4 y)) ∨ (r = PartitionProduceResponse0.first 5 y ∨ Cut.begun {} (fun t => t.RecordErrors) (fun t x => { t with RecordErrors := x }) (PartitionProduceResponse0.first 5) r y)) ∨ (r = PartitionProduceResponse0.first 6 y))) :=
  (.field Longer.int32 (fun _ => rfl) (fun _ _ => rfl) (fun _ _ => rfl) (fun _ => rfl) : Parts (KDec.field Dec.int32 0 (fun t x => { t with PartitionIndex := x })) (PartitionProduceResponse0.first 0) (PartitionProduceResponse0.first 1) (fun r y => r = PartitionProduceResponse0.first 0 y))
    |>.andThen (.field Longer.int16 (fun _ => rfl) (fun _ _ => rfl) (fun _ _ => rfl) (fun _ => rfl) : Parts (KDec.field Dec.int16 0 (fun t x => { t with ErrorCode := x })) (PartitionProduceResponse0.first 1) (PartitionProduceResponse0.first 2) (fun r y => r = PartitionProduceResponse0.first 1 y))
    |>.andThen (.field Longer.int64 (fun _ => rfl) (fun _ _ => rfl) (fun _ _ => rfl) (fun _ => rfl) : Parts (KDec.field Dec.int64 0 (fun t x => { t with BaseOffset := x })) (PartitionProduceResponse0.first 2) (PartitionProduceResponse0.first 3) (fun r y => r = PartitionProduceResponse0.first 2 y))
    |>.andThen (.onlyIf (.field Longer.int64 (fun _ => rfl) (fun _ _ => rfl) (fun _ _ => rfl) (fun _ => rfl)) (fun _ => rfl) : Parts (KDec.onlyIf (version ≥ 2) (KDec.field Dec.int64 0 (fun t x => { t with LogAppendTimeMs := x }))) (PartitionProduceResponse0.first 3) (PartitionProduceResponse0.first 4) (fun r y => r = PartitionProduceResponse0.first 3 y))
    |>.andThen (.onlyIf (.field Longer.int64 (fun _ => rfl) (fun _ _ => rfl) (fun _ _ => rfl) (fun _ => rfl)) (fun _ => rfl) : Parts (KDec.onlyIf (version ≥ 5) (KDec.field Dec.int64 0 (fun t x => { t with LogStartOffset := x }))) (PartitionProduceResponse0.first 4) (PartitionProduceResponse0.first 5) (fun r y => r = PartitionProduceResponse0.first 4 y))
    |>.andThen (.onlyIf (.structs (get := fun (t : PartitionProduceResponse0) => t.RecordErrors) ((BatchIndexAndErrorMessage0.partsK version).longer {}) (fun _ => rfl) (fun _ => rfl) (fun _ _ => rfl) (fun _ _ => rfl) (fun _ _ => rfl) (fun _ => rfl) (fun _ => rfl)) (fun _ => rfl) : Parts (KDec.onlyIf (version ≥ 8) (KDec.fieldStructs (BatchIndexAndErrorMessage0.decodeK version {}) {} (fun t x => { t with RecordErrors := x }))) (PartitionProduceResponse0.first 5) (PartitionProduceResponse0.first 6) (fun r y => r = PartitionProduceResponse0.first 5 y ∨ Cut.begun {} (fun t => t.RecordErrors) (fun t x => { t with RecordErrors := x }) (PartitionProduceResponse0.first 5) r y))
    |>.andThen (.onlyIf (.field Longer.string (fun _ => rfl) (fun _ _ => rfl) (fun _ _ => rfl) (fun _ => rfl)) (fun _ => rfl) : Parts (KDec.onlyIf (version ≥ 8) (KDec.field Dec.string [] (fun t x => { t with ErrorMessage := x }))) (PartitionProduceResponse0.first 6) (PartitionProduceResponse0.first 7) (fun r y => r = PartitionProduceResponse0.first 6 y))
theorem PartitionProduceResponse0.filled (version : Int16) : FilledStep 36 12884934664 (PartitionProduceResponse0.decode version) :=
  ((FilledStep.field .int32)
    |>.andThen (FilledStep.field .int16)
    |>.andThen (FilledStep.field .int64)
    |>.andThen (FilledStep.onlyIf (FilledStep.field .int64))
    |>.andThen (FilledStep.onlyIf (FilledStep.field .int64))
    |>.andThen (FilledStep.onlyIf (FilledStep.structs (BatchIndexAndErrorMessage0.filled version {})))
    |>.andThen (FilledStep.onlyIf (FilledStep.field .string))).mono (by decide) (by decide)
theorem PartitionProduceResponse0.part_of (r y : PartitionProduceResponse0) (h : (((((((r = PartitionProduceResponse0.first 0 y) ∨ (r = PartitionProduceResponse0.first 1 y)) ∨ (r = PartitionProduceResponse0.first 2 y)) ∨ (r = PartitionProduceResponse0.first 3 y)) ∨ (r = PartitionProduceResponse0.first 4 y)) ∨ (r = PartitionProduceResponse0.first 5 y ∨ Cut.begun {} (fun t => t.RecordErrors) (fun t x => { t with RecordErrors := x }) (PartitionProduceResponse0.first 5) r y)) ∨ (r = PartitionProduceResponse0.first 6 y))) : PartitionProduceResponse0.Part r y :=
  match h with
    | (.inl (.inl (.inl (.inl (.inl (.inl h)))))) => .inl ⟨0, by decide, h⟩
    | (.inl (.inl (.inl (.inl (.inl (.inr h)))))) => .inl ⟨1, by decide, h⟩
    | (.inl (.inl (.inl (.inl (.inr h))))) => .inl ⟨2, by decide, h⟩
    | (.inl (.inl (.inl (.inr h)))) => .inl ⟨3, by decide, h⟩
    | (.inl (.inl (.inr h))) => .inl ⟨4, by decide, h⟩
    | (.inl (.inr (.inl h))) => .inl ⟨5, by decide, h⟩
    | (.inl (.inr (.inr h))) => (.inr h)
    | (.inr h) => .inl ⟨6, by decide, h⟩
theorem PartitionProduceResponse0.keeps_holds : PartitionProduceResponse0.keeps.Holds PartitionProduceResponse0.layout :=
  KeptMsg.holds PartitionProduceResponse0.lawful PartitionProduceResponse0.sameK (stop := fun v t => PartitionProduceResponse0.ends v t 6) (c := fun v t => PartitionProduceResponse0.cutAt v t 0) (fun _ _ _ => rfl) PartitionProduceResponse0.cutsK (c0 := PartitionProduceResponse0.first 0) rfl PartitionProduceResponse0.partsK PartitionProduceResponse0.part_of PartitionProduceResponse0.filled (by decide) (by decide)

/-- message/messages.gen.go:262-282 `TopicProduceResponse0.Decode`, with the receiver kept -/
def TopicProduceResponse0.decodeK (version : Int16) : KDec TopicProduceResponse0 :=
    KDec.field Dec.string [] (fun t x => { t with Name := x }) ;|>
    KDec.fieldStructs (PartitionProduceResponse0.decodeK version {}) {} (fun t x => { t with Partitions := x })

/-- Where the fields of `TopicProduceResponse0` end. -/
def TopicProduceResponse0.ends (version : Int16) (t : TopicProduceResponse0) : Nat → Nat :=
  Cut.ends 0 [Wire.string t.Name,
    Wire.array (PartitionProduceResponse0.wire version) t.Partitions]

/-- What is left of `t` if only its first `n` bytes are there. -/
def TopicProduceResponse0.cut (version : Int16) (n : Nat) (t : TopicProduceResponse0) : TopicProduceResponse0 :=
  { Name := Cut.field n (t.ends version 0) t.Name [],
    Partitions := Cut.array n (t.ends version 0) (PartitionProduceResponse0.wire version) (fun x => x.seen version {}) {} t.Partitions }

/-- The same after the first `k` statements of `Decode`. -/
def TopicProduceResponse0.cutAt (version : Int16) (t : TopicProduceResponse0) (k n : Nat) : TopicProduceResponse0 :=
  { Name := upto k 0 (Cut.field n (t.ends version 0) t.Name []) [],
    Partitions := upto k 1 (Cut.array n (t.ends version 0) (PartitionProduceResponse0.wire version) (fun x => x.seen version {}) {} t.Partitions) none }

/-- The first `k` fields of `y`, and zeros. -/
def TopicProduceResponse0.first (k : Nat) (y : TopicProduceResponse0) : TopicProduceResponse0 :=
  { Name := upto k 0 y.Name [],
    Partitions := upto k 1 y.Partitions none }

/-- `r` is a beginning of `y`, and zeros. -/
def TopicProduceResponse0.Part (r y : TopicProduceResponse0) : Prop :=
  (∃ k, k < 2 ∧ r = y.first k) ∨
    Cut.begun {} (fun t => t.Partitions) (fun t x => { t with Partitions := x }) (TopicProduceResponse0.first 1) r y

/-- `TopicProduceResponse0` with its receiver kept. -/
def TopicProduceResponse0.keeps : KeptMsg TopicProduceResponse0.type := { decode := TopicProduceResponse0.decodeK, cut := TopicProduceResponse0.cut, Part := TopicProduceResponse0.Part }

theorem TopicProduceResponse0.sameK (version : Int16) : KStep (TopicProduceResponse0.decodeK version) (TopicProduceResponse0.decode version) :=
  (KStep.field)
    |>.andThen (KStep.structs (fun _ => rfl) (PartitionProduceResponse0.sameK version {}))
theorem TopicProduceResponse0.cutsK (version : Int16) (t : TopicProduceResponse0) (h : t.Fits version) :
    Cuts (TopicProduceResponse0.decodeK version) 0 (TopicProduceResponse0.wire version t) (TopicProduceResponse0.ends version t 1) (TopicProduceResponse0.cutAt version t 0) (TopicProduceResponse0.cutAt version t 2) :=
  (.field (reads_string h.Name) (fun _ => rfl) (fun _ => rfl) : Cuts _ 0 _ (TopicProduceResponse0.ends version t 0) (TopicProduceResponse0.cutAt version t 0) (TopicProduceResponse0.cutAt version t 1))
    |>.andThen (.structs (PartitionProduceResponse0.sameK version {}) (fun x hx => PartitionProduceResponse0.reads version x hx {}) h.Partitions (fun _ => rfl) (fun _ => rfl) : Cuts _ (TopicProduceResponse0.ends version t 0) _ (TopicProduceResponse0.ends version t 1) (TopicProduceResponse0.cutAt version t 1) (TopicProduceResponse0.cutAt version t 2))
theorem TopicProduceResponse0.partsK (version : Int16) : Parts (TopicProduceResponse0.decodeK version) (TopicProduceResponse0.first 0) (TopicProduceResponse0.first 2) (fun r y => ((r = TopicProduceResponse0.first 0 y) ∨ (r = TopicProduceResponse0.first 1 y ∨ Cut.begun {} (fun t => t.Partitions) (fun t x => { t with Partitions := x }) (TopicProduceResponse0.first 1) r y))) :=
  (.field Longer.string (fun _ => rfl) (fun _ _ => rfl) (fun _ _ => rfl) (fun _ => rfl) : Parts (KDec.field Dec.string [] (fun t x => { t with Name := x })) (TopicProduceResponse0.first 0) (TopicProduceResponse0.first 1) (fun r y => r = TopicProduceResponse0.first 0 y))
    |>.andThen (.structs (get := fun (t : TopicProduceResponse0) => t.Partitions) ((PartitionProduceResponse0.partsK version).longer {}) (fun _ => rfl) (fun _ => rfl) (fun _ _ => rfl) (fun _ _ => rfl) (fun _ _ => rfl) (fun _ => rfl) (fun _ => rfl) : Parts (KDec.fieldStructs (PartitionProduceResponse0.decodeK version {}) {} (fun t x => { t with Partitions := x })) (TopicProduceResponse0.first 1) (TopicProduceResponse0.first 2) (fun r y => r = TopicProduceResponse0.first 1 y ∨ Cut.begun {} (fun t => t.Partitions) (fun t x => { t with Partitions := x }) (TopicProduceResponse0.first 1) r y))
theorem TopicProduceResponse0.filled (version : Int16) : FilledStep 6 90194345996 (TopicProduceResponse0.decode version) :=
  ((FilledStep.field .string)
    |>.andThen (FilledStep.structs (PartitionProduceResponse0.filled version {}))).mono (by decide) (by decide)
theorem TopicProduceResponse0.part_of (r y : TopicProduceResponse0) (h : ((r = TopicProduceResponse0.first 0 y) ∨ (r = TopicProduceResponse0.first 1 y ∨ Cut.begun {} (fun t => t.Partitions) (fun t x => { t with Partitions := x }) (TopicProduceResponse0.first 1) r y))) : TopicProduceResponse0.Part r y :=
  match h with
    | (.inl h) => .inl ⟨0, by decide, h⟩
    | (.inr (.inl h)) => .inl ⟨1, by decide, h⟩
    | (.inr (.inr h)) => (.inr h)
theorem TopicProduceResponse0.keeps_holds : TopicProduceResponse0.keeps.Holds TopicProduceResponse0.layout :=
  KeptMsg.holds TopicProduceResponse0.lawful TopicProduceResponse0.sameK (stop := fun v t => TopicProduceResponse0.ends v t 1) (c := fun v t => TopicProduceResponse0.cutAt v t 0) (fun _ _ _ => rfl) TopicProduceResponse0.cutsK (c0 := TopicProduceResponse0.first 0) rfl TopicProduceResponse0.partsK TopicProduceResponse0.part_of TopicProduceResponse0.filled (by decide) (by decide)

/-- message/messages.gen.go:210-232 `ProduceResponse.Decode`, with the receiver kept -/
def ProduceResponse.decodeK (version : Int16) : KDec ProduceResponse :=
    KDec.fieldStructs (TopicProduceResponse0.decodeK version {}) {} (fun t x => { t with Responses := x }) ;|>
    KDec.onlyIf (version ≥ 1) (KDec.field Dec.int32 0 (fun t x => { t with ThrottleTimeMs := x }))

/-- Where the fields of `ProduceResponse` end. -/
def ProduceResponse.ends (version : Int16) (t : ProduceResponse) : Nat → Nat :=
  Cut.ends 0 [Wire.array (TopicProduceResponse0.wire version) t.Responses,
    Wire.when (version ≥ 1) (Wire.int32 t.ThrottleTimeMs)]

/-- What is left of `t` if only its first `n` bytes are there. -/
def ProduceResponse.cut (version : Int16) (n : Nat) (t : ProduceResponse) : ProduceResponse :=
  { Responses := Cut.array n 0 (TopicProduceResponse0.wire version) (fun x => x.seen version {}) {} t.Responses,
    ThrottleTimeMs := Cut.gate (version ≥ 1) (Cut.field n (t.ends version 1) t.ThrottleTimeMs 0) 0 }

/-- The same after the first `k` statements of `Decode`. -/
def ProduceResponse.cutAt (version : Int16) (t : ProduceResponse) (k n : Nat) : ProduceResponse :=
  { Responses := upto k 0 (Cut.array n 0 (TopicProduceResponse0.wire version) (fun x => x.seen version {}) {} t.Responses) none,
    ThrottleTimeMs := upto k 1 (Cut.gate (version ≥ 1) (Cut.field n (t.ends version 1) t.ThrottleTimeMs 0) 0) 0 }

/-- The first `k` fields of `y`, and zeros. -/
def ProduceResponse.first (k : Nat) (y : ProduceResponse) : ProduceResponse :=
  { Responses := upto k 0 y.Responses none,
    ThrottleTimeMs := upto k 1 y.ThrottleTimeMs 0 }

/-- `r` is a beginning of `y`, and zeros. -/
def ProduceResponse.Part (r y : ProduceResponse) : Prop :=
  (∃ k, k < 2 ∧ r = y.first k) ∨
    Cut.begun {} (fun t => t.Responses) (fun t x => { t with Responses := x }) (ProduceResponse.first 0) r y

/-- `ProduceResponse` with its receiver kept. -/
def ProduceResponse.keeps : KeptMsg ProduceResponse.type := { decode := ProduceResponse.decodeK, cut := ProduceResponse.cut, Part := ProduceResponse.Part }

theorem ProduceResponse.sameK (version : Int16) : KStep (ProduceResponse.decodeK version) (ProduceResponse.decode version) :=
  (KStep.structs (fun _ => rfl) (TopicProduceResponse0.sameK version {}))
    |>.andThen (KStep.onlyIf (KStep.field))
theorem ProduceResponse.cutsK (version : Int16) (t : ProduceResponse) (h : t.Fits version) :
    Cuts (ProduceResponse.decodeK version) 0 (ProduceResponse.wire version t) (ProduceResponse.ends version t 1) (ProduceResponse.cutAt version t 0) (ProduceResponse.cutAt version t 2) :=
  (.structs (TopicProduceResponse0.sameK version {}) (fun x hx => TopicProduceResponse0.reads version x hx {}) h.Responses (fun _ => rfl) (fun _ => rfl) : Cuts _ 0 _ (ProduceResponse.ends version t 0) (ProduceResponse.cutAt version t 0) (ProduceResponse.cutAt version t 1))
    |>.andThen (.optField (fun _ => reads_int32 t.ThrottleTimeMs) (fun _ => rfl) (fun _ => rfl) : Cuts _ (ProduceResponse.ends version t 0) _ (ProduceResponse.ends version t 1) (ProduceResponse.cutAt version t 1) (ProduceResponse.cutAt version t 2))
theorem ProduceResponse.partsK (version : Int16) : Parts (ProduceResponse.decodeK version) (ProduceResponse.first 0) (ProduceResponse.first 2) (fun r y => ((r = ProduceResponse.first 0 y ∨ Cut.begun {} (fun t => t.Responses) (fun t x => { t with Responses := x }) (ProduceResponse.first 0) r y) ∨ (r = ProduceResponse.first 1 y))) :=
  (.structs (get := fun (t : ProduceResponse) => t.Responses) ((TopicProduceResponse0.partsK version).longer {}) (fun _ => rfl) (fun _ => rfl) (fun _ _ => rfl) (fun _ _ => rfl) (fun _ _ => rfl) (fun _ => rfl) (fun _ => rfl) : Parts (KDec.fieldStructs (TopicProduceResponse0.decodeK version {}) {} (fun t x => { t with Responses := x })) (ProduceResponse.first 0) (ProduceResponse.first 1) (fun r y => r = ProduceResponse.first 0 y ∨ Cut.begun {} (fun t => t.Responses) (fun t x => { t with Responses := x }) (ProduceResponse.first 0) r y))
    |>.andThen (.onlyIf (.field Longer.int32 (fun _ => rfl) (fun _ _ => rfl) (fun _ _ => rfl) (fun _ => rfl)) (fun _ => rfl) : Parts (KDec.onlyIf (version ≥ 1) (KDec.field Dec.int32 0 (fun t x => { t with ThrottleTimeMs := x }))) (ProduceResponse.first 1) (ProduceResponse.first 2) (fun r y => r = ProduceResponse.first 1 y))
theorem ProduceResponse.filled (version : Int16) : FilledStep 8 103079247892 (ProduceResponse.decode version) :=
  ((FilledStep.structs (TopicProduceResponse0.filled version {}))
    |>.andThen (FilledStep.onlyIf (FilledStep.field .int32))).mono (by decide) (by decide)
theorem ProduceResponse.part_of (r y : ProduceResponse) (h : ((r = ProduceResponse.first 0 y ∨ Cut.begun {} (fun t => t.Responses) (fun t x => { t with Responses := x }) (ProduceResponse.first 0) r y) ∨ (r = ProduceResponse.first 1 y))) : ProduceResponse.Part r y :=
  match h with
    | (.inl (.inl h)) => .inl ⟨0, by decide, h⟩
    | (.inl (.inr h)) => (.inr h)
    | (.inr h) => .inl ⟨1, by decide, h⟩
theorem ProduceResponse.keeps_holds : ProduceResponse.keeps.Holds ProduceResponse.layout :=
  KeptMsg.holds ProduceResponse.lawful ProduceResponse.sameK (stop := fun v t => ProduceResponse.ends v t 1) (c := fun v t => ProduceResponse.cutAt v t 0) (fun _ _ _ => rfl) ProduceResponse.cutsK (c0 := ProduceResponse.first 0) rfl ProduceResponse.partsK ProduceResponse.part_of ProduceResponse.filled (by decide) (by decide)

/-- The structures of the Produce messages. -/
def keptProduce : List (Σ (M : MsgType) (_ : Layout M), KeptMsg M) :=
  [⟨ProduceRequest.type, ProduceRequest.layout, ProduceRequest.keeps⟩,
   ⟨TopicProduceData0.type, TopicProduceData0.layout, TopicProduceData0.keeps⟩,
   ⟨PartitionProduceData0.type, PartitionProduceData0.layout, PartitionProduceData0.keeps⟩,
   ⟨ProduceResponse.type, ProduceResponse.layout, ProduceResponse.keeps⟩,
   ⟨TopicProduceResponse0.type, TopicProduceResponse0.layout, TopicProduceResponse0.keeps⟩,
   ⟨PartitionProduceResponse0.type, PartitionProduceResponse0.layout, PartitionProduceResponse0.keeps⟩,
   ⟨BatchIndexAndErrorMessage0.type, BatchIndexAndErrorMessage0.layout, BatchIndexAndErrorMessage0.keeps⟩]
theorem keptProduce_holds : ∀ p ∈ keptProduce, p.2.2.Holds p.2.1 := by
  unfold keptProduce
  simp only [List.forall_mem_cons]
  exact ⟨ProduceRequest.keeps_holds, TopicProduceData0.keeps_holds, PartitionProduceData0.keeps_holds, ProduceResponse.keeps_holds, TopicProduceResponse0.keeps_holds, PartitionProduceResponse0.keeps_holds, BatchIndexAndErrorMessage0.keeps_holds, fun _ h => absurd h (by simp)⟩

end Kafka.Msg
