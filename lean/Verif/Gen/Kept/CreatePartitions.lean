import Verif.Message.KeptLemmas
import Verif.Gen.Proof.CreatePartitions
/-!
Generated by tools/gen_messages.py: what is in the CreatePartitions messages after an error.
-/
set_option linter.unusedVariables false
namespace Kafka.Msg

/-- message/messages.gen.go:9804-9811 `CreatePartitionsAssignment37.Decode`, with the receiver kept -/
def CreatePartitionsAssignment37.decodeK (_version : Int16) : KDec CreatePartitionsAssignment37 :=
    KDec.field Dec.int32Array none (fun t x => { t with BrokerIds := x })

/-- Where the fields of `CreatePartitionsAssignment37` end. -/
def CreatePartitionsAssignment37.ends (_version : Int16) (t : CreatePartitionsAssignment37) : Nat → Nat :=
  Cut.ends 0 [Wire.int32Array t.BrokerIds]

/-- What is left of `t` if only its first `n` bytes are there. -/
def CreatePartitionsAssignment37.cut (version : Int16) (n : Nat) (t : CreatePartitionsAssignment37) : CreatePartitionsAssignment37 :=
  { BrokerIds := Cut.field n (t.ends version 0) t.BrokerIds none }

/-- The same after the first `k` statements of `Decode`. -/
def CreatePartitionsAssignment37.cutAt (version : Int16) (t : CreatePartitionsAssignment37) (k n : Nat) : CreatePartitionsAssignment37 :=
  { BrokerIds := upto k 0 (Cut.field n (t.ends version 0) t.BrokerIds none) none }

/-- The first `k` fields of `y`, and zeros. -/
def CreatePartitionsAssignment37.first (k : Nat) (y : CreatePartitionsAssignment37) : CreatePartitionsAssignment37 :=
  { BrokerIds := upto k 0 y.BrokerIds none }

/-- `r` is a beginning of `y`, and zeros. -/
def CreatePartitionsAssignment37.Part (r y : CreatePartitionsAssignment37) : Prop :=
  (∃ k, k < 1 ∧ r = y.first k)

/-- `CreatePartitionsAssignment37` with its receiver kept. -/
def CreatePartitionsAssignment37.keeps : KeptMsg CreatePartitionsAssignment37.type := { decode := CreatePartitionsAssignment37.decodeK, cut := CreatePartitionsAssignment37.cut, Part := CreatePartitionsAssignment37.Part }

theorem CreatePartitionsAssignment37.sameK (version : Int16) : KStep (CreatePartitionsAssignment37.decodeK version) (CreatePartitionsAssignment37.decode version) :=
  KStep.field
theorem CreatePartitionsAssignment37.cutsK (version : Int16) (t : CreatePartitionsAssignment37) (h : t.Fits version) :
    Cuts (CreatePartitionsAssignment37.decodeK version) 0 (CreatePartitionsAssignment37.wire version t) (CreatePartitionsAssignment37.ends version t 0) (CreatePartitionsAssignment37.cutAt version t 0) (CreatePartitionsAssignment37.cutAt version t 1) :=
  (.field (reads_int32Array h.BrokerIds) (fun _ => rfl) (fun _ => rfl) : Cuts _ 0 _ (CreatePartitionsAssignment37.ends version t 0) (CreatePartitionsAssignment37.cutAt version t 0) (CreatePartitionsAssignment37.cutAt version t 1))
theorem CreatePartitionsAssignment37.partsK (version : Int16) : Parts (CreatePartitionsAssignment37.decodeK version) (CreatePartitionsAssignment37.first 0) (CreatePartitionsAssignment37.first 1) (fun r y => (r = CreatePartitionsAssignment37.first 0 y)) :=
  (.field Longer.int32Array (fun _ => rfl) (fun _ _ => rfl) (fun _ _ => rfl) (fun _ => rfl) : Parts (KDec.field Dec.int32Array none (fun t x => { t with BrokerIds := x })) (CreatePartitionsAssignment37.first 0) (CreatePartitionsAssignment37.first 1) (fun r y => r = CreatePartitionsAssignment37.first 0 y))
theorem CreatePartitionsAssignment37.filled (version : Int16) : FilledStep 4 8589934600 (CreatePartitionsAssignment37.decode version) :=
  (FilledStep.field .int32Array).mono (by decide) (by decide)
theorem CreatePartitionsAssignment37.part_of (r y : CreatePartitionsAssignment37) (h : (r = CreatePartitionsAssignment37.first 0 y)) : CreatePartitionsAssignment37.Part r y :=
  match h with
    | h => ⟨0, by decide, h⟩
theorem CreatePartitionsAssignment37.keeps_holds : CreatePartitionsAssignment37.keeps.Holds CreatePartitionsAssignment37.layout :=
  KeptMsg.holds CreatePartitionsAssignment37.lawful CreatePartitionsAssignment37.sameK (stop := fun v t => CreatePartitionsAssignment37.ends v t 0) (c := fun v t => CreatePartitionsAssignment37.cutAt v t 0) (fun _ _ _ => rfl) CreatePartitionsAssignment37.cutsK (c0 := CreatePartitionsAssignment37.first 0) rfl CreatePartitionsAssignment37.partsK CreatePartitionsAssignment37.part_of CreatePartitionsAssignment37.filled (by decide) (by decide)

/-- message/messages.gen.go:9761-9785 `CreatePartitionsTopic37.Decode`, with the receiver kept -/
def CreatePartitionsTopic37.decodeK (version : Int16) : KDec CreatePartitionsTopic37 :=
    KDec.field Dec.string [] (fun t x => { t with Name := x }) ;|>
    KDec.field Dec.int32 0 (fun t x => { t with Count := x }) ;|>
    KDec.fieldStructs (CreatePartitionsAssignment37.decodeK version {}) {} (fun t x => { t with Assignments := x })

/-- Where the fields of `CreatePartitionsTopic37` end. -/
def CreatePartitionsTopic37.ends (version : Int16) (t : CreatePartitionsTopic37) : Nat → Nat :=
  Cut.ends 0 [Wire.string t.Name,
    Wire.int32 t.Count,
    Wire.array (CreatePartitionsAssignment37.wire version) t.Assignments]

/-- What is left of `t` if only its first `n` bytes are there. -/
def CreatePartitionsTopic37.cut (version : Int16) (n : Nat) (t : CreatePartitionsTopic37) : CreatePartitionsTopic37 :=
  { Name := Cut.field n (t.ends version 0) t.Name [],
    Count := Cut.field n (t.ends version 1) t.Count 0,
    Assignments := Cut.array n (t.ends version 1) (CreatePartitionsAssignment37.wire version) (fun x => x.seen version {}) {} t.Assignments }

/-- The same after the first `k` statements of `Decode`. -/
def CreatePartitionsTopic37.cutAt (version : Int16) (t : CreatePartitionsTopic37) (k n : Nat) : CreatePartitionsTopic37 :=
  { Name := upto k 0 (Cut.field n (t.ends version 0) t.Name []) [],
    Count := upto k 1 (Cut.field n (t.ends version 1) t.Count 0) 0,
    Assignments := upto k 2 (Cut.array n (t.ends version 1) (CreatePartitionsAssignment37.wire version) (fun x => x.seen version {}) {} t.Assignments) none }

/-- The first `k` fields of `y`, and zeros. -/
def CreatePartitionsTopic37.first (k : Nat) (y : CreatePartitionsTopic37) : CreatePartitionsTopic37 :=
  { Name := upto k 0 y.Name [],
    Count := upto k 1 y.Count 0,
    Assignments := upto k 2 y.Assignments none }

/-- `r` is a beginning of `y`, and zeros. -/
def CreatePartitionsTopic37.Part (r y : CreatePartitionsTopic37) : Prop :=
  (∃ k, k < 3 ∧ r = y.first k) ∨
    Cut.begun {} (fun t => t.Assignments) (fun t x => { t with Assignments := x }) (CreatePartitionsTopic37.first 2) r y

/-- `CreatePartitionsTopic37` with its receiver kept. -/
def CreatePartitionsTopic37.keeps : KeptMsg CreatePartitionsTopic37.type := { decode := CreatePartitionsTopic37.decodeK, cut := CreatePartitionsTopic37.cut, Part := CreatePartitionsTopic37.Part }

theorem CreatePartitionsTopic37.sameK (version : Int16) : KStep (CreatePartitionsTopic37.decodeK version) (CreatePartitionsTopic37.decode version) :=
  (KStep.field)
    |>.andThen (KStep.field)
    |>.andThen (KStep.structs (fun _ => rfl) (CreatePartitionsAssignment37.sameK version {}))
theorem CreatePartitionsTopic37.cutsK (version : Int16) (t : CreatePartitionsTopic37) (h : t.Fits version) :
    Cuts (CreatePartitionsTopic37.decodeK version) 0 (CreatePartitionsTopic37.wire version t) (CreatePartitionsTopic37.ends version t 2) (CreatePartitionsTopic37.cutAt version t 0) (CreatePartitionsTopic37.cutAt version t 3) :=
  (.field (reads_string h.Name) (fun _ => rfl) (fun _ => rfl) : Cuts _ 0 _ (CreatePartitionsTopic37.ends version t 0) (CreatePartitionsTopic37.cutAt version t 0) (CreatePartitionsTopic37.cutAt version t 1))
    |>.andThen (.field (reads_int32 t.Count) (fun _ => rfl) (fun _ => rfl) : Cuts _ (CreatePartitionsTopic37.ends version t 0) _ (CreatePartitionsTopic37.ends version t 1) (CreatePartitionsTopic37.cutAt version t 1) (CreatePartitionsTopic37.cutAt version t 2))
    |>.andThen (.structs (CreatePartitionsAssignment37.sameK version {}) (fun x hx => CreatePartitionsAssignment37.reads version x hx {}) h.Assignments (fun _ => rfl) (fun _ => rfl) : Cuts _ (CreatePartitionsTopic37.ends version t 1) _ (CreatePartitionsTopic37.ends version t 2) (CreatePartitionsTopic37.cutAt version t 2) (CreatePartitionsTopic37.cutAt version t 3))
theorem CreatePartitionsTopic37.partsK (version : Int16) : Parts (CreatePartitionsTopic37.decodeK version) (CreatePartitionsTopic37.first 0) (CreatePartitionsTopic37.first 3) (fun r y => (((r = CreatePartitionsTopic37.first 0 y) ∨ (r = CreatePartitionsTopic37.first 1 y)) ∨ (r = CreatePartitionsTopic37.first 2 y ∨ Cut.begun {} (fun t => t.Assignments) (fun t x => { t with Assignments := x }) (CreatePartitionsTopic37.first 2) r y))) :=
  (.field Longer.string (fun _ => rfl) (fun _ _ => rfl) (fun _ _ => rfl) (fun _ => rfl) : Parts (KDec.field Dec.string [] (fun t x => { t with Name := x })) (CreatePartitionsTopic37.first 0) (CreatePartitionsTopic37.first 1) (fun r y => r = CreatePartitionsTopic37.first 0 y))
    |>.andThen (.field Longer.int32 (fun _ => rfl) (fun _ _ => rfl) (fun _ _ => rfl) (fun _ => rfl) : Parts (KDec.field Dec.int32 0 (fun t x => { t with Count := x })) (CreatePartitionsTopic37.first 1) (CreatePartitionsTopic37.first 2) (fun r y => r = CreatePartitionsTopic37.first 1 y))
    |>.andThen (.structs (get := fun (t : CreatePartitionsTopic37) => t.Assignments) ((CreatePartitionsAssignment37.partsK version).longer {}) (fun _ => rfl) (fun _ => rfl) (fun _ _ => rfl) (fun _ _ => rfl) (fun _ _ => rfl) (fun _ => rfl) (fun _ => rfl) : Parts (KDec.fieldStructs (CreatePartitionsAssignment37.decodeK version {}) {} (fun t x => { t with Assignments := x })) (CreatePartitionsTopic37.first 2) (CreatePartitionsTopic37.first 3) (fun r y => r = CreatePartitionsTopic37.first 2 y ∨ Cut.begun {} (fun t => t.Assignments) (fun t x => { t with Assignments := x }) (CreatePartitionsTopic37.first 2) r y))
theorem CreatePartitionsTopic37.filled (version : Int16) : FilledStep 10 17179869196 (CreatePartitionsTopic37.decode version) :=
  ((FilledStep.field .string)
    |>.andThen (FilledStep.field .int32)
    |>.andThen (FilledStep.structs (CreatePartitionsAssignment37.filled version {}))).mono (by decide) (by decide)
theorem CreatePartitionsTopic37.part_of (r y : CreatePartitionsTopic37) (h : (((r = CreatePartitionsTopic37.first 0 y) ∨ (r = CreatePartitionsTopic37.first 1 y)) ∨ (r = CreatePartitionsTopic37.first 2 y ∨ Cut.begun {} (fun t => t.Assignments) (fun t x => { t with Assignments := x }) (CreatePartitionsTopic37.first 2) r y))) : CreatePartitionsTopic37.Part r y :=
  match h with
    | (.inl (.inl h)) => .inl ⟨0, by decide, h⟩
    | (.inl (.inr h)) => .inl ⟨1, by decide, h⟩
    | (.inr (.inl h)) => .inl ⟨2, by decide, h⟩
    | (.inr (.inr h)) => (.inr h)
theorem CreatePartitionsTopic37.keeps_holds : CreatePartitionsTopic37.keeps.Holds CreatePartitionsTopic37.layout :=
  KeptMsg.holds CreatePartitionsTopic37.lawful CreatePartitionsTopic37.sameK (stop := fun v t => CreatePartitionsTopic37.ends v t 2) (c := fun v t => CreatePartitionsTopic37.cutAt v t 0) (fun _ _ _ => rfl) CreatePartitionsTopic37.cutsK (c0 := CreatePartitionsTopic37.first 0) rfl CreatePartitionsTopic37.partsK CreatePartitionsTopic37.part_of CreatePartitionsTopic37.filled (by decide) (by decide)

/-- message/messages.gen.go:9704-9728 `CreatePartitionsRequest.Decode`, with the receiver kept -/
def CreatePartitionsRequest.decodeK (version : Int16) : KDec CreatePartitionsRequest :=
    KDec.fieldStructs (CreatePartitionsTopic37.decodeK version {}) {} (fun t x => { t with Topics := x }) ;|>
    KDec.field Dec.int32 0 (fun t x => { t with TimeoutMs := x }) ;|>
    KDec.field Dec.bool false (fun t x => { t with ValidateOnly := x })

/-- Where the fields of `CreatePartitionsRequest` end. -/
def CreatePartitionsRequest.ends (version : Int16) (t : CreatePartitionsRequest) : Nat → Nat :=
  Cut.ends 0 [Wire.array (CreatePartitionsTopic37.wire version) t.Topics,
    Wire.int32 t.TimeoutMs,
    Wire.bool t.ValidateOnly]

/-- What is left of `t` if only its first `n` bytes are there. -/
def CreatePartitionsRequest.cut (version : Int16) (n : Nat) (t : CreatePartitionsRequest) : CreatePartitionsRequest :=
  { Topics := Cut.array n 0 (CreatePartitionsTopic37.wire version) (fun x => x.seen version {}) {} t.Topics,
    TimeoutMs := Cut.field n (t.ends version 1) t.TimeoutMs 0,
    ValidateOnly := Cut.field n (t.ends version 2) t.ValidateOnly false }

/-- The same after the first `k` statements of `Decode`. -/
def CreatePartitionsRequest.cutAt (version : Int16) (t : CreatePartitionsRequest) (k n : Nat) : CreatePartitionsRequest :=
  { Topics := upto k 0 (Cut.array n 0 (CreatePartitionsTopic37.wire version) (fun x => x.seen version {}) {} t.Topics) none,
    TimeoutMs := upto k 1 (Cut.field n (t.ends version 1) t.TimeoutMs 0) 0,
    ValidateOnly := upto k 2 (Cut.field n (t.ends version 2) t.ValidateOnly false) false }

/-- The first `k` fields of `y`, and zeros. -/
def CreatePartitionsRequest.first (k : Nat) (y : CreatePartitionsRequest) : CreatePartitionsRequest :=
  { Topics := upto k 0 y.Topics none,
    TimeoutMs := upto k 1 y.TimeoutMs 0,
    ValidateOnly := upto k 2 y.ValidateOnly false }

/-- `r` is a beginning of `y`, and zeros. -/
def CreatePartitionsRequest.Part (r y : CreatePartitionsRequest) : Prop :=
  (∃ k, k < 3 ∧ r = y.first k) ∨
    Cut.begun {} (fun t => t.Topics) (fun t x => { t with Topics := x }) (CreatePartitionsRequest.first 0) r y

/-- `CreatePartitionsRequest` with its receiver kept. -/
def CreatePartitionsRequest.keeps : KeptMsg CreatePartitionsRequest.type := { decode := CreatePartitionsRequest.decodeK, cut := CreatePartitionsRequest.cut, Part := CreatePartitionsRequest.Part }

theorem CreatePartitionsRequest.sameK (version : Int16) : KStep (CreatePartitionsRequest.decodeK version) (CreatePartitionsRequest.decode version) :=
  (KStep.structs (fun _ => rfl) (CreatePartitionsTopic37.sameK version {}))
    |>.andThen (KStep.field)
    |>.andThen (KStep.field)
theorem CreatePartitionsRequest.cutsK (version : Int16) (t : CreatePartitionsRequest) (h : t.Fits version) :
    Cuts (CreatePartitionsRequest.decodeK version) 0 (CreatePartitionsRequest.wire version t) (CreatePartitionsRequest.ends version t 2) (CreatePartitionsRequest.cutAt version t 0) (CreatePartitionsRequest.cutAt version t 3) :=
  (.structs (CreatePartitionsTopic37.sameK version {}) (fun x hx => CreatePartitionsTopic37.reads version x hx {}) h.Topics (fun _ => rfl) (fun _ => rfl) : Cuts _ 0 _ (CreatePartitionsRequest.ends version t 0) (CreatePartitionsRequest.cutAt version t 0) (CreatePartitionsRequest.cutAt version t 1))
    |>.andThen (.field (reads_int32 t.TimeoutMs) (fun _ => rfl) (fun _ => rfl) : Cuts _ (CreatePartitionsRequest.ends version t 0) _ (CreatePartitionsRequest.ends version t 1) (CreatePartitionsRequest.cutAt version t 1) (CreatePartitionsRequest.cutAt version t 2))
    |>.andThen (.field (reads_bool t.ValidateOnly) (fun _ => rfl) (fun _ => rfl) : Cuts _ (CreatePartitionsRequest.ends version t 1) _ (CreatePartitionsRequest.ends version t 2) (CreatePartitionsRequest.cutAt version t 2) (CreatePartitionsRequest.cutAt version t 3))
theorem CreatePartitionsRequest.partsK (version : Int16) : Parts (CreatePartitionsRequest.decodeK version) (CreatePartitionsRequest.first 0) (CreatePartitionsRequest.first 3) (fun r y => (((r = CreatePartitionsRequest.first 0 y ∨ Cut.begun {} (fun t => t.Topics) (fun t x => { t with Topics := x }) (CreatePartitionsRequest.first 0) r y) ∨ (r = CreatePartitionsRequest.first 1 y)) ∨ (r = CreatePartitionsRequest.first 2 y))) :=
  (.structs (get := fun (t : CreatePartitionsRequest) => t.Topics) ((CreatePartitionsTopic37.partsK version).longer {}) (fun _ => rfl) (fun _ => rfl) (fun _ _ => rfl) (fun _ _ => rfl) (fun _ _ => rfl) (fun _ => rfl) (fun _ => rfl) : Parts (KDec.fieldStructs (CreatePartitionsTopic37.decodeK version {}) {} (fun t x => { t with Topics := x })) (CreatePartitionsRequest.first 0) (CreatePartitionsRequest.first 1) (fun r y => r = CreatePartitionsRequest.first 0 y ∨ Cut.begun {} (fun t => t.Topics) (fun t x => { t with Topics := x }) (CreatePartitionsRequest.first 0) r y))
    |>.andThen (.field Longer.int32 (fun _ => rfl) (fun _ _ => rfl) (fun _ _ => rfl) (fun _ => rfl) : Parts (KDec.field Dec.int32 0 (fun t x => { t with TimeoutMs := x })) (CreatePartitionsRequest.first 1) (CreatePartitionsRequest.first 2) (fun r y => r = CreatePartitionsRequest.first 1 y))
    |>.andThen (.field Longer.bool (fun _ => rfl) (fun _ _ => rfl) (fun _ _ => rfl) (fun _ => rfl) : Parts (KDec.field Dec.bool false (fun t x => { t with ValidateOnly := x })) (CreatePartitionsRequest.first 2) (CreatePartitionsRequest.first 3) (fun r y => r = CreatePartitionsRequest.first 2 y))
theorem CreatePartitionsRequest.filled (version : Int16) : FilledStep 9 38654705685 (CreatePartitionsRequest.decode version) :=
  ((FilledStep.structs (CreatePartitionsTopic37.filled version {}))
    |>.andThen (FilledStep.field .int32)
    |>.andThen (FilledStep.field .bool)).mono (by decide) (by decide)
theorem CreatePartitionsRequest.part_of (r y : CreatePartitionsRequest) (h : (((r = CreatePartitionsRequest.first 0 y ∨ Cut.begun {} (fun t => t.Topics) (fun t x => { t with Topics := x }) (CreatePartitionsRequest.first 0) r y) ∨ (r = CreatePartitionsRequest.first 1 y)) ∨ (r = CreatePartitionsRequest.first 2 y))) : CreatePartitionsRequest.Part r y :=
  match h with
    | (.inl (.inl (.inl h))) => .inl ⟨0, by decide, h⟩
    | (.inl (.inl (.inr h))) => (.inr h)
    | (.inl (.inr h)) => .inl ⟨1, by decide, h⟩
    | (.inr h) => .inl ⟨2, by decide, h⟩
theorem CreatePartitionsRequest.keeps_holds : CreatePartitionsRequest.keeps.Holds CreatePartitionsRequest.layout :=
  KeptMsg.holds CreatePartitionsRequest.lawful CreatePartitionsRequest.sameK (stop := fun v t => CreatePartitionsRequest.ends v t 2) (c := fun v t => CreatePartitionsRequest.cutAt v t 0) (fun _ _ _ => rfl) CreatePartitionsRequest.cutsK (c0 := CreatePartitionsRequest.first 0) rfl CreatePartitionsRequest.partsK CreatePartitionsRequest.part_of CreatePartitionsRequest.filled (by decide) (by decide)

/-- message/messages.gen.go:9887-9902 `CreatePartitionsTopicResult37.Decode`, with the receiver kept -/
def CreatePartitionsTopicResult37.decodeK (_version : Int16) : KDec CreatePartitionsTopicResult37 :=
    KDec.field Dec.string [] (fun t x => { t with Name := x }) ;|>
    KDec.field Dec.int16 0 (fun t x => { t with ErrorCode := x }) ;|>
    KDec.field Dec.string [] (fun t x => { t with ErrorMessage := x })

/-- Where the fields of `CreatePartitionsTopicResult37` end. -/
def CreatePartitionsTopicResult37.ends (_version : Int16) (t : CreatePartitionsTopicResult37) : Nat → Nat :=
  Cut.ends 0 [Wire.string t.Name,
    Wire.int16 t.ErrorCode,
    Wire.string t.ErrorMessage]

/-- What is left of `t` if only its first `n` bytes are there. -/
def CreatePartitionsTopicResult37.cut (version : Int16) (n : Nat) (t : CreatePartitionsTopicResult37) : CreatePartitionsTopicResult37 :=
  { Name := Cut.field n (t.ends version 0) t.Name [],
    ErrorCode := Cut.field n (t.ends version 1) t.ErrorCode 0,
    ErrorMessage := Cut.field n (t.ends version 2) t.ErrorMessage [] }

/-- The same after the first `k` statements of `Decode`. -/
def CreatePartitionsTopicResult37.cutAt (version : Int16) (t : CreatePartitionsTopicResult37) (k n : Nat) : CreatePartitionsTopicResult37 :=
  { Name := upto k 0 (Cut.field n (t.ends version 0) t.Name []) [],
    ErrorCode := upto k 1 (Cut.field n (t.ends version 1) t.ErrorCode 0) 0,
    ErrorMessage := upto k 2 (Cut.field n (t.ends version 2) t.ErrorMessage []) [] }

/-- The first `k` fields of `y`, and zeros. -/
def CreatePartitionsTopicResult37.first (k : Nat) (y : CreatePartitionsTopicResult37) : CreatePartitionsTopicResult37 :=
  { Name := upto k 0 y.Name [],
    ErrorCode := upto k 1 y.ErrorCode 0,
    ErrorMessage := upto k 2 y.ErrorMessage [] }

/-- `r` is a beginning of `y`, and zeros. -/
def CreatePartitionsTopicResult37.Part (r y : CreatePartitionsTopicResult37) : Prop :=
  (∃ k, k < 3 ∧ r = y.first k)

/-- `CreatePartitionsTopicResult37` with its receiver kept. -/
def CreatePartitionsTopicResult37.keeps : KeptMsg CreatePartitionsTopicResult37.type := { decode := CreatePartitionsTopicResult37.decodeK, cut := CreatePartitionsTopicResult37.cut, Part := CreatePartitionsTopicResult37.Part }

theorem CreatePartitionsTopicResult37.sameK (version : Int16) : KStep (CreatePartitionsTopicResult37.decodeK version) (CreatePartitionsTopicResult37.decode version) :=
  (KStep.field)
    |>.andThen (KStep.field)
    |>.andThen (KStep.field)
theorem CreatePartitionsTopicResult37.cutsK (version : Int16) (t : CreatePartitionsTopicResult37) (h : t.Fits version) :
    Cuts (CreatePartitionsTopicResult37.decodeK version) 0 (CreatePartitionsTopicResult37.wire version t) (CreatePartitionsTopicResult37.ends version t 2) (CreatePartitionsTopicResult37.cutAt version t 0) (CreatePartitionsTopicResult37.cutAt version t 3) :=
  (.field (reads_string h.Name) (fun _ => rfl) (fun _ => rfl) : Cuts _ 0 _ (CreatePartitionsTopicResult37.ends version t 0) (CreatePartitionsTopicResult37.cutAt version t 0) (CreatePartitionsTopicResult37.cutAt version t 1))
    |>.andThen (.field (reads_int16 t.ErrorCode) (fun _ => rfl) (fun _ => rfl) : Cuts _ (CreatePartitionsTopicResult37.ends version t 0) _ (CreatePartitionsTopicResult37.ends version t 1) (CreatePartitionsTopicResult37.cutAt version t 1) (CreatePartitionsTopicResult37.cutAt version t 2))
    |>.andThen (.field (reads_string h.ErrorMessage) (fun _ => rfl) (fun _ => rfl) : Cuts _ (CreatePartitionsTopicResult37.ends version t 1) _ (CreatePartitionsTopicResult37.ends version t 2) (CreatePartitionsTopicResult37.cutAt version t 2) (CreatePartitionsTopicResult37.cutAt version t 3))
theorem CreatePartitionsTopicResult37.partsK (version : Int16) : Parts (CreatePartitionsTopicResult37.decodeK version) (CreatePartitionsTopicResult37.first 0) (CreatePartitionsTopicResult37.first 3) (fun r y => (((r = CreatePartitionsTopicResult37.first 0 y) ∨ (r = CreatePartitionsTopicResult37.first 1 y)) ∨ (r = CreatePartitionsTopicResult37.first 2 y))) :=
  (.field Longer.string (fun _ => rfl) (fun _ _ => rfl) (fun _ _ => rfl) (fun _ => rfl) : Parts (KDec.field Dec.string [] (fun t x => { t with Name := x })) (CreatePartitionsTopicResult37.first 0) (CreatePartitionsTopicResult37.first 1) (fun r y => r = CreatePartitionsTopicResult37.first 0 y))
    |>.andThen (.field Longer.int16 (fun _ => rfl) (fun _ _ => rfl) (fun _ _ => rfl) (fun _ => rfl) : Parts (KDec.field Dec.int16 0 (fun t x => { t with ErrorCode := x })) (CreatePartitionsTopicResult37.first 1) (CreatePartitionsTopicResult37.first 2) (fun r y => r = CreatePartitionsTopicResult37.first 1 y))
    |>.andThen (.field Longer.string (fun _ => rfl) (fun _ _ => rfl) (fun _ _ => rfl) (fun _ => rfl) : Parts (KDec.field Dec.string [] (fun t x => { t with ErrorMessage := x })) (CreatePartitionsTopicResult37.first 2) (CreatePartitionsTopicResult37.first 3) (fun r y => r = CreatePartitionsTopicResult37.first 2 y))
theorem CreatePartitionsTopicResult37.filled (version : Int16) : FilledStep 6 32774 (CreatePartitionsTopicResult37.decode version) :=
  ((FilledStep.field .string)
    |>.andThen (FilledStep.field .int16)
    |>.andThen (FilledStep.field .string)).mono (by decide) (by decide)
theorem CreatePartitionsTopicResult37.part_of (r y : CreatePartitionsTopicResult37) (h : (((r = CreatePartitionsTopicResult37.first 0 y) ∨ (r = CreatePartitionsTopicResult37.first 1 y)) ∨ (r = CreatePartitionsTopicResult37.first 2 y))) : CreatePartitionsTopicResult37.Part r y :=
  match h with
    | (.inl (.inl h)) => ⟨0, by decide, h⟩
    | (.inl (.inr h)) => ⟨1, by decide, h⟩
    | (.inr h) => ⟨2, by decide, h⟩
theorem CreatePartitionsTopicResult37.keeps_holds : CreatePartitionsTopicResult37.keeps.Holds CreatePartitionsTopicResult37.layout :=
  KeptMsg.holds CreatePartitionsTopicResult37.lawful CreatePartitionsTopicResult37.sameK (stop := fun v t => CreatePartitionsTopicResult37.ends v t 2) (c := fun v t => CreatePartitionsTopicResult37.cutAt v t 0) (fun _ _ _ => rfl) CreatePartitionsTopicResult37.cutsK (c0 := CreatePartitionsTopicResult37.first 0) rfl CreatePartitionsTopicResult37.partsK CreatePartitionsTopicResult37.part_of CreatePartitionsTopicResult37.filled (by decide) (by decide)

/-- message/messages.gen.go:9842-9862 `CreatePartitionsResponse.Decode`, with the receiver kept -/
def CreatePartitionsResponse.decodeK (version : Int16) : KDec CreatePartitionsResponse :=
    KDec.field Dec.int32 0 (fun t x => { t with ThrottleTimeMs := x }) ;|>
    KDec.fieldStructs (CreatePartitionsTopicResult37.decodeK version {}) {} (fun t x => { t with Results := x })

/-- Where the fields of `CreatePartitionsResponse` end. -/
def CreatePartitionsResponse.ends (version : Int16) (t : CreatePartitionsResponse) : Nat → Nat :=
  Cut.ends 0 [Wire.int32 t.ThrottleTimeMs,
    Wire.array (CreatePartitionsTopicResult37.wire version) t.Results]

/-- What is left of `t` if only its first `n` bytes are there. -/
def CreatePartitionsResponse.cut (version : Int16) (n : Nat) (t : CreatePartitionsResponse) : CreatePartitionsResponse :=
  { ThrottleTimeMs := Cut.field n (t.ends version 0) t.ThrottleTimeMs 0,
    Results := Cut.array n (t.ends version 0) (CreatePartitionsTopicResult37.wire version) (fun x => x.seen version {}) {} t.Results }

/-- The same after the first `k` statements of `Decode`. -/
def CreatePartitionsResponse.cutAt (version : Int16) (t : CreatePartitionsResponse) (k n : Nat) : CreatePartitionsResponse :=
  { ThrottleTimeMs := upto k 0 (Cut.field n (t.ends version 0) t.ThrottleTimeMs 0) 0,
    Results := upto k 1 (Cut.array n (t.ends version 0) (CreatePartitionsTopicResult37.wire version) (fun x => x.seen version {}) {} t.Results) none }

/-- The first `k` fields of `y`, and zeros. -/
def CreatePartitionsResponse.first (k : Nat) (y : CreatePartitionsResponse) : CreatePartitionsResponse :=
  { ThrottleTimeMs := upto k 0 y.ThrottleTimeMs 0,
    Results := upto k 1 y.Results none }

/-- `r` is a beginning of `y`, and zeros. -/
def CreatePartitionsResponse.Part (r y : CreatePartitionsResponse) : Prop :=
  (∃ k, k < 2 ∧ r = y.first k) ∨
    Cut.begun {} (fun t => t.Results) (fun t x => { t with Results := x }) (CreatePartitionsResponse.first 1) r y

/-- `CreatePartitionsResponse` with its receiver kept. -/
def CreatePartitionsResponse.keeps : KeptMsg CreatePartitionsResponse.type := { decode := CreatePartitionsResponse.decodeK, cut := CreatePartitionsResponse.cut, Part := CreatePartitionsResponse.Part }

theorem CreatePartitionsResponse.sameK (version : Int16) : KStep (CreatePartitionsResponse.decodeK version) (CreatePartitionsResponse.decode version) :=
  (KStep.field)
    |>.andThen (KStep.structs (fun _ => rfl) (CreatePartitionsTopicResult37.sameK version {}))
theorem CreatePartitionsResponse.cutsK (version : Int16) (t : CreatePartitionsResponse) (h : t.Fits version) :
    Cuts (CreatePartitionsResponse.decodeK version) 0 (CreatePartitionsResponse.wire version t) (CreatePartitionsResponse.ends version t 1) (CreatePartitionsResponse.cutAt version t 0) (CreatePartitionsResponse.cutAt version t 2) :=
  (.field (reads_int32 t.ThrottleTimeMs) (fun _ => rfl) (fun _ => rfl) : Cuts _ 0 _ (CreatePartitionsResponse.ends version t 0) (CreatePartitionsResponse.cutAt version t 0) (CreatePartitionsResponse.cutAt version t 1))
    |>.andThen (.structs (CreatePartitionsTopicResult37.sameK version {}) (fun x hx => CreatePartitionsTopicResult37.reads version x hx {}) h.Results (fun _ => rfl) (fun _ => rfl) : Cuts _ (CreatePartitionsResponse.ends version t 0) _ (CreatePartitionsResponse.ends version t 1) (CreatePartitionsResponse.cutAt version t 1) (CreatePartitionsResponse.cutAt version t 2))
theorem CreatePartitionsResponse.partsK (version : Int16) : Parts (CreatePartitionsResponse.decodeK version) (CreatePartitionsResponse.first 0) (CreatePartitionsResponse.first 2) (fun r y => ((r = CreatePartitionsResponse.first 0 y) ∨ (r = CreatePartitionsResponse.first 1 y ∨ Cut.begun {} (fun t => t.Results) (fun t x => { t with Results := x }) (CreatePartitionsResponse.first 1) r y))) :=
  (.field Longer.int32 (fun _ => rfl) (fun _ _ => rfl) (fun _ _ => rfl) (fun _ => rfl) : Parts (KDec.field Dec.int32 0 (fun t x => { t with ThrottleTimeMs := x })) (CreatePartitionsResponse.first 0) (CreatePartitionsResponse.first 1) (fun r y => r = CreatePartitionsResponse.first 0 y))
    |>.andThen (.structs (get := fun (t : CreatePartitionsResponse) => t.Results) ((CreatePartitionsTopicResult37.partsK version).longer {}) (fun _ => rfl) (fun _ => rfl) (fun _ _ => rfl) (fun _ _ => rfl) (fun _ _ => rfl) (fun _ => rfl) (fun _ => rfl) : Parts (KDec.fieldStructs (CreatePartitionsTopicResult37.decodeK version {}) {} (fun t x => { t with Results := x })) (CreatePartitionsResponse.first 1) (CreatePartitionsResponse.first 2) (fun r y => r = CreatePartitionsResponse.first 1 y ∨ Cut.begun {} (fun t => t.Results) (fun t x => { t with Results := x }) (CreatePartitionsResponse.first 1) r y))
theorem CreatePartitionsResponse.filled (version : Int16) : FilledStep 8 12884934666 (CreatePartitionsResponse.decode version) :=
  ((FilledStep.field .int32)
    |>.andThen (FilledStep.structs (CreatePartitionsTopicResult37.filled version {}))).mono (by decide) (by decide)
theorem CreatePartitionsResponse.part_of (r y : CreatePartitionsResponse) (h : ((r = CreatePartitionsResponse.first 0 y) ∨ (r = CreatePartitionsResponse.first 1 y ∨ Cut.begun {} (fun t => t.Results) (fun t x => { t with Results := x }) (CreatePartitionsResponse.first 1) r y))) : CreatePartitionsResponse.Part r y :=
  match h with
    | (.inl h) => .inl ⟨0, by decide, h⟩
    | (.inr (.inl h)) => .inl ⟨1, by decide, h⟩
    | (.inr (.inr h)) => (.inr h)
theorem CreatePartitionsResponse.keeps_holds : CreatePartitionsResponse.keeps.Holds CreatePartitionsResponse.layout :=
  KeptMsg.holds CreatePartitionsResponse.lawful CreatePartitionsResponse.sameK (stop := fun v t => CreatePartitionsResponse.ends v t 1) (c := fun v t => CreatePartitionsResponse.cutAt v t 0) (fun _ _ _ => rfl) CreatePartitionsResponse.cutsK (c0 := CreatePartitionsResponse.first 0) rfl CreatePartitionsResponse.partsK CreatePartitionsResponse.part_of CreatePartitionsResponse.filled (by decide) (by decide)

/-- The structures of the CreatePartitions messages. -/
def keptCreatePartitions : List (Σ (M : MsgType) (_ : Layout M), KeptMsg M) :=
  [⟨CreatePartitionsRequest.type, CreatePartitionsRequest.layout, CreatePartitionsRequest.keeps⟩,
   ⟨CreatePartitionsTopic37.type, CreatePartitionsTopic37.layout, CreatePartitionsTopic37.keeps⟩,
   ⟨CreatePartitionsAssignment37.type, CreatePartitionsAssignment37.layout, CreatePartitionsAssignment37.keeps⟩,
   ⟨CreatePartitionsResponse.type, CreatePartitionsResponse.layout, CreatePartitionsResponse.keeps⟩,
   ⟨CreatePartitionsTopicResult37.type, CreatePartitionsTopicResult37.layout, CreatePartitionsTopicResult37.keeps⟩]
theorem keptCreatePartitions_holds : ∀ p ∈ keptCreatePartitions, p.2.2.Holds p.2.1 := by
  unfold keptCreatePartitions
  simp only [List.forall_mem_cons]
  exact ⟨CreatePartitionsRequest.keeps_holds, CreatePartitionsTopic37.keeps_holds, CreatePartitionsAssignment37.keeps_holds, CreatePartitionsResponse.keeps_holds, CreatePartitionsTopicResult37.keeps_holds, fun _ h => absurd h (by simp)⟩

end Kafka.Msg
