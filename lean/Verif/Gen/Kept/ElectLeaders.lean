import Verif.Message.KeptLemmas
import Verif.Gen.Proof.ElectLeaders
/-!
Generated by tools/gen_messages.py: what is in the ElectLeaders messages after an error.
-/
set_option linter.unusedVariables false
namespace Kafka.Msg

/-- message/messages.gen.go:10676-10687 `TopicPartitions43.Decode`, with the receiver kept -/
def TopicPartitions43.decodeK (_version : Int16) : KDec TopicPartitions43 :=
    KDec.field Dec.string [] (fun t x => { t with Topic := x }) ;|>
    KDec.field Dec.int32Array none (fun t x => { t with PartitionId := x })

/-- Where the fields of `TopicPartitions43` end. -/
def TopicPartitions43.ends (_version : Int16) (t : TopicPartitions43) : Nat → Nat :=
  Cut.ends 0 [Wire.string t.Topic,
    Wire.int32Array t.PartitionId]

/-- What is left of `t` if only its first `n` bytes are there. -/
def TopicPartitions43.cut (version : Int16) (n : Nat) (t : TopicPartitions43) : TopicPartitions43 :=
  { Topic := Cut.field n (t.ends version 0) t.Topic [],
    PartitionId := Cut.field n (t.ends version 1) t.PartitionId none }

/-- The same after the first `k` statements of `Decode`. -/
def TopicPartitions43.cutAt (version : Int16) (t : TopicPartitions43) (k n : Nat) : TopicPartitions43 :=
  { Topic := upto k 0 (Cut.field n (t.ends version 0) t.Topic []) [],
    PartitionId := upto k 1 (Cut.field n (t.ends version 1) t.PartitionId none) none }

/-- The first `k` fields of `y`, and zeros. -/
def TopicPartitions43.first (k : Nat) (y : TopicPartitions43) : TopicPartitions43 :=
  { Topic := upto k 0 y.Topic [],
    PartitionId := upto k 1 y.PartitionId none }

/-- `r` is a beginning of `y`, and zeros. -/
def TopicPartitions43.Part (r y : TopicPartitions43) : Prop :=
  (∃ k, k < 2 ∧ r = y.first k)

/-- `TopicPartitions43` with its receiver kept. -/
def TopicPartitions43.keeps : KeptMsg TopicPartitions43.type := { decode := TopicPartitions43.decodeK, cut := TopicPartitions43.cut, Part := TopicPartitions43.Part }

theorem TopicPartitions43.sameK (version : Int16) : KStep (TopicPartitions43.decodeK version) (TopicPartitions43.decode version) :=
  (KStep.field)
    |>.andThen (KStep.field)
theorem TopicPartitions43.cutsK (version : Int16) (t : TopicPartitions43) (h : t.Fits version) :
    Cuts (TopicPartitions43.decodeK version) 0 (TopicPartitions43.wire version t) (TopicPartitions43.ends version t 1) (TopicPartitions43.cutAt version t 0) (TopicPartitions43.cutAt version t 2) :=
  (.field (reads_string h.Topic) (fun _ => rfl) (fun _ => rfl) : Cuts _ 0 _ (TopicPartitions43.ends version t 0) (TopicPartitions43.cutAt version t 0) (TopicPartitions43.cutAt version t 1))
    |>.andThen (.field (reads_int32Array h.PartitionId) (fun _ => rfl) (fun _ => rfl) : Cuts _ (TopicPartitions43.ends version t 0) _ (TopicPartitions43.ends version t 1) (TopicPartitions43.cutAt version t 1) (TopicPartitions43.cutAt version t 2))
theorem TopicPartitions43.partsK (version : Int16) : Parts (TopicPartitions43.decodeK version) (TopicPartitions43.first 0) (TopicPartitions43.first 2) (fun r y => ((r = TopicPartitions43.first 0 y) ∨ (r = TopicPartitions43.first 1 y))) :=
  (.field Longer.string (fun _ => rfl) (fun _ _ => rfl) (fun _ _ => rfl) (fun _ => rfl) : Parts (KDec.field Dec.string [] (fun t x => { t with Topic := x })) (TopicPartitions43.first 0) (TopicPartitions43.first 1) (fun r y => r = TopicPartitions43.first 0 y))
    |>.andThen (.field Longer.int32Array (fun _ => rfl) (fun _ _ => rfl) (fun _ _ => rfl) (fun _ => rfl) : Parts (KDec.field Dec.int32Array none (fun t x => { t with PartitionId := x })) (TopicPartitions43.first 1) (TopicPartitions43.first 2) (fun r y => r = TopicPartitions43.first 1 y))
theorem TopicPartitions43.filled (version : Int16) : FilledStep 6 8589934600 (TopicPartitions43.decode version) :=
  ((FilledStep.field .string)
    |>.andThen (FilledStep.field .int32Array)).mono (by decide) (by decide)
theorem TopicPartitions43.part_of (r y : TopicPartitions43) (h : ((r = TopicPartitions43.first 0 y) ∨ (r = TopicPartitions43.first 1 y))) : TopicPartitions43.Part r y :=
  match h with
    | (.inl h) => ⟨0, by decide, h⟩
    | (.inr h) => ⟨1, by decide, h⟩
theorem TopicPartitions43.keeps_holds : TopicPartitions43.keeps.Holds TopicPartitions43.layout :=
  KeptMsg.holds TopicPartitions43.lawful TopicPartitions43.sameK (stop := fun v t => TopicPartitions43.ends v t 1) (c := fun v t => TopicPartitions43.cutAt v t 0) (fun _ _ _ => rfl) TopicPartitions43.cutsK (c0 := TopicPartitions43.first 0) rfl TopicPartitions43.partsK TopicPartitions43.part_of TopicPartitions43.filled (by decide) (by decide)

/-- message/messages.gen.go:10628-10654 `ElectLeadersRequest.Decode`, with the receiver kept -/
def ElectLeadersRequest.decodeK (version : Int16) : KDec ElectLeadersRequest :=
    KDec.onlyIf (version ≥ 1) (KDec.field Dec.int8 0 (fun t x => { t with ElectionType := x })) ;|>
    KDec.fieldStructs (TopicPartitions43.decodeK version {}) {} (fun t x => { t with TopicPartitions := x }) ;|>
    KDec.field Dec.int32 0 (fun t x => { t with TimeoutMs := x })

/-- Where the fields of `ElectLeadersRequest` end. -/
def ElectLeadersRequest.ends (version : Int16) (t : ElectLeadersRequest) : Nat → Nat :=
  Cut.ends 0 [Wire.when (version ≥ 1) (Wire.int8 t.ElectionType),
    Wire.array (TopicPartitions43.wire version) t.TopicPartitions,
    Wire.int32 t.TimeoutMs]

/-- What is left of `t` if only its first `n` bytes are there. -/
def ElectLeadersRequest.cut (version : Int16) (n : Nat) (t : ElectLeadersRequest) : ElectLeadersRequest :=
  { ElectionType := Cut.gate (version ≥ 1) (Cut.field n (t.ends version 0) t.ElectionType 0) 0,
    TopicPartitions := Cut.array n (t.ends version 0) (TopicPartitions43.wire version) (fun x => x.seen version {}) {} t.TopicPartitions,
    TimeoutMs := Cut.field n (t.ends version 2) t.TimeoutMs 0 }

/-- The same after the first `k` statements of `Decode`. -/
def ElectLeadersRequest.cutAt (version : Int16) (t : ElectLeadersRequest) (k n : Nat) : ElectLeadersRequest :=
  { ElectionType := upto k 0 (Cut.gate (version ≥ 1) (Cut.field n (t.ends version 0) t.ElectionType 0) 0) 0,
    TopicPartitions := upto k 1 (Cut.array n (t.ends version 0) (TopicPartitions43.wire version) (fun x => x.seen version {}) {} t.TopicPartitions) none,
    TimeoutMs := upto k 2 (Cut.field n (t.ends version 2) t.TimeoutMs 0) 0 }

/-- The first `k` fields of `y`, and zeros. -/
def ElectLeadersRequest.first (k : Nat) (y : ElectLeadersRequest) : ElectLeadersRequest :=
  { ElectionType := upto k 0 y.ElectionType 0,
    TopicPartitions := upto k 1 y.TopicPartitions none,
    TimeoutMs := upto k 2 y.TimeoutMs 0 }

/-- `r` is a beginning of `y`, and zeros. -/
def ElectLeadersRequest.Part (r y : ElectLeadersRequest) : Prop :=
  (∃ k, k < 3 ∧ r = y.first k) ∨
    Cut.begun {} (fun t => t.TopicPartitions) (fun t x => { t with TopicPartitions := x }) (ElectLeadersRequest.first 1) r y

/-- `ElectLeadersRequest` with its receiver kept. -/
def ElectLeadersRequest.keeps : KeptMsg ElectLeadersRequest.type := { decode := ElectLeadersRequest.decodeK, cut := ElectLeadersRequest.cut, Part := ElectLeadersRequest.Part }

theorem ElectLeadersRequest.sameK (version : Int16) : KStep (ElectLeadersRequest.decodeK version) (ElectLeadersRequest.decode version) :=
  (KStep.onlyIf (KStep.field))
    |>.andThen (KStep.structs (fun _ => rfl) (TopicPartitions43.sameK version {}))
    |>.andThen (KStep.field)
theorem ElectLeadersRequest.cutsK (version : Int16) (t : ElectLeadersRequest) (h : t.Fits version) :
    Cuts (ElectLeadersRequest.decodeK version) 0 (ElectLeadersRequest.wire version t) (ElectLeadersRequest.ends version t 2) (ElectLeadersRequest.cutAt version t 0) (ElectLeadersRequest.cutAt version t 3) :=
  (.optField (fun _ => reads_int8 t.ElectionType) (fun _ => rfl) (fun _ => rfl) : Cuts _ 0 _ (ElectLeadersRequest.ends version t 0) (ElectLeadersRequest.cutAt version t 0) (ElectLeadersRequest.cutAt version t 1))
    |>.andThen (.structs (TopicPartitions43.sameK version {}) (fun x hx => TopicPartitions43.reads version x hx {}) h.TopicPartitions (fun _ => rfl) (fun _ => rfl) : Cuts _ (ElectLeadersRequest.ends version t 0) _ (ElectLeadersRequest.ends version t 1) (ElectLeadersRequest.cutAt version t 1) (ElectLeadersRequest.cutAt version t 2))
    |>.andThen (.field (reads_int32 t.TimeoutMs) (fun _ => rfl) (fun _ => rfl) : Cuts _ (ElectLeadersRequest.ends version t 1) _ (ElectLeadersRequest.ends version t 2) (ElectLeadersRequest.cutAt version t 2) (ElectLeadersRequest.cutAt version t 3))
theorem ElectLeadersRequest.partsK (version : Int16) : Parts (ElectLeadersRequest.decodeK version) (ElectLeadersRequest.first 0) (ElectLeadersRequest.first 3) (fun r y => (((r = ElectLeadersRequest.first 0 y) ∨ (r = ElectLeadersRequest.first 1 y ∨ Cut.begun {} (fun t => t.TopicPartitions) (fun t x => { t with TopicPartitions := x }) (ElectLeadersRequest.first 1) r y)) ∨ (r = ElectLeadersRequest.first 2 y))) :=
  (.onlyIf (.field Longer.int8 (fun _ => rfl) (fun _ _ => rfl) (fun _ _ => rfl) (fun _ => rfl)) (fun _ => rfl) : Parts (KDec.onlyIf (version ≥ 1) (KDec.field Dec.int8 0 (fun t x => { t with ElectionType := x }))) (ElectLeadersRequest.first 0) (ElectLeadersRequest.first 1) (fun r y => r = ElectLeadersRequest.first 0 y))
    |>.andThen (.structs (get := fun (t : ElectLeadersRequest) => t.TopicPartitions) ((TopicPartitions43.partsK version).longer {}) (fun _ => rfl) (fun _ => rfl) (fun _ _ => rfl) (fun _ _ => rfl) (fun _ _ => rfl) (fun _ => rfl) (fun _ => rfl) : Parts (KDec.fieldStructs (TopicPartitions43.decodeK version {}) {} (fun t x => { t with TopicPartitions := x })) (ElectLeadersRequest.first 1) (ElectLeadersRequest.first 2) (fun r y => r = ElectLeadersRequest.first 1 y ∨ Cut.begun {} (fun t => t.TopicPartitions) (fun t x => { t with TopicPartitions := x }) (ElectLeadersRequest.first 1) r y))
    |>.andThen (.field Longer.int32 (fun _ => rfl) (fun _ _ => rfl) (fun _ _ => rfl) (fun _ => rfl) : Parts (KDec.field Dec.int32 0 (fun t x => { t with TimeoutMs := x })) (ElectLeadersRequest.first 2) (ElectLeadersRequest.first 3) (fun r y => r = ElectLeadersRequest.first 2 y))
theorem ElectLeadersRequest.filled (version : Int16) : FilledStep 9 21474836496 (ElectLeadersRequest.decode version) :=
  ((FilledStep.onlyIf (FilledStep.field .int8))
    |>.andThen (FilledStep.structs (TopicPartitions43.filled version {}))
    |>.andThen (FilledStep.field .int32)).mono (by decide) (by decide)
theorem ElectLeadersRequest.part_of (r y : ElectLeadersRequest) (h : (((r = ElectLeadersRequest.first 0 y) ∨ (r = ElectLeadersRequest.first 1 y ∨ Cut.begun {} (fun t => t.TopicPartitions) (fun t x => { t with TopicPartitions := x }) (ElectLeadersRequest.first 1) r y)) ∨ (r = ElectLeadersRequest.first 2 y))) : ElectLeadersRequest.Part r y :=
  match h with
    | (.inl (.inl h)) => .inl ⟨0, by decide, h⟩
    | (.inl (.inr (.inl h))) => .inl ⟨1, by decide, h⟩
    | (.inl (.inr (.inr h))) => (.inr h)
    | (.inr h) => .inl ⟨2, by decide, h⟩
theorem ElectLeadersRequest.keeps_holds : ElectLeadersRequest.keeps.Holds ElectLeadersRequest.layout :=
  KeptMsg.holds ElectLeadersRequest.lawful ElectLeadersRequest.sameK (stop := fun v t => ElectLeadersRequest.ends v t 2) (c := fun v t => ElectLeadersRequest.cutAt v t 0) (fun _ _ _ => rfl) ElectLeadersRequest.cutsK (c0 := ElectLeadersRequest.first 0) rfl ElectLeadersRequest.partsK ElectLeadersRequest.part_of ElectLeadersRequest.filled (by decide) (by decide)

/-- message/messages.gen.go:10826-10841 `PartitionResult43.Decode`, with the receiver kept -/
def PartitionResult43.decodeK (_version : Int16) : KDec PartitionResult43 :=
    KDec.field Dec.int32 0 (fun t x => { t with PartitionId := x }) ;|>
    KDec.field Dec.int16 0 (fun t x => { t with ErrorCode := x }) ;|>
    KDec.field Dec.string [] (fun t x => { t with ErrorMessage := x })

/-- Where the fields of `PartitionResult43` end. -/
def PartitionResult43.ends (_version : Int16) (t : PartitionResult43) : Nat → Nat :=
  Cut.ends 0 [Wire.int32 t.PartitionId,
    Wire.int16 t.ErrorCode,
    Wire.string t.ErrorMessage]

/-- What is left of `t` if only its first `n` bytes are there. -/
def PartitionResult43.cut (version : Int16) (n : Nat) (t : PartitionResult43) : PartitionResult43 :=
  { PartitionId := Cut.field n (t.ends version 0) t.PartitionId 0,
    ErrorCode := Cut.field n (t.ends version 1) t.ErrorCode 0,
    ErrorMessage := Cut.field n (t.ends version 2) t.ErrorMessage [] }

/-- The same after the first `k` statements of `Decode`. -/
def PartitionResult43.cutAt (version : Int16) (t : PartitionResult43) (k n : Nat) : PartitionResult43 :=
  { PartitionId := upto k 0 (Cut.field n (t.ends version 0) t.PartitionId 0) 0,
    ErrorCode := upto k 1 (Cut.field n (t.ends version 1) t.ErrorCode 0) 0,
    ErrorMessage := upto k 2 (Cut.field n (t.ends version 2) t.ErrorMessage []) [] }

/-- The first `k` fields of `y`, and zeros. -/
def PartitionResult43.first (k : Nat) (y : PartitionResult43) : PartitionResult43 :=
  { PartitionId := upto k 0 y.PartitionId 0,
    ErrorCode := upto k 1 y.ErrorCode 0,
    ErrorMessage := upto k 2 y.ErrorMessage [] }

/-- `r` is a beginning of `y`, and zeros. -/
def PartitionResult43.Part (r y : PartitionResult43) : Prop :=
  (∃ k, k < 3 ∧ r = y.first k)

/-- `PartitionResult43` with its receiver kept. -/
def PartitionResult43.keeps : KeptMsg PartitionResult43.type := { decode := PartitionResult43.decodeK, cut := PartitionResult43.cut, Part := PartitionResult43.Part }

theorem PartitionResult43.sameK (version : Int16) : KStep (PartitionResult43.decodeK version) (PartitionResult43.decode version) :=
  (KStep.field)
    |>.andThen (KStep.field)
    |>.andThen (KStep.field)
theorem PartitionResult43.cutsK (version : Int16) (t : PartitionResult43) (h : t.Fits version) :
    Cuts (PartitionResult43.decodeK version) 0 (PartitionResult43.wire version t) (PartitionResult43.ends version t 2) (PartitionResult43.cutAt version t 0) (PartitionResult43.cutAt version t 3) :=
  (.field (reads_int32 t.PartitionId) (fun _ => rfl) (fun _ => rfl) : Cuts _ 0 _ (PartitionResult43.ends version t 0) (PartitionResult43.cutAt version t 0) (PartitionResult43.cutAt version t 1))
    |>.andThen (.field (reads_int16 t.ErrorCode) (fun _ => rfl) (fun _ => rfl) : Cuts _ (PartitionResult43.ends version t 0) _ (PartitionResult43.ends version t 1) (PartitionResult43.cutAt version t 1) (PartitionResult43.cutAt version t 2))
    |>.andThen (.field (reads_string h.ErrorMessage) (fun _ => rfl) (fun _ => rfl) : Cuts _ (PartitionResult43.ends version t 1) _ (PartitionResult43.ends version t 2) (PartitionResult43.cutAt version t 2) (PartitionResult43.cutAt version t 3))
theorem PartitionResult43.partsK (version : Int16) : Parts (PartitionResult43.decodeK version) (PartitionResult43.first 0) (PartitionResult43.first 3) (fun r y => (((r = PartitionResult43.first 0 y) ∨ (r = PartitionResult43.first 1 y)) ∨ (r = PartitionResult43.first 2 y))) :=
  (.field Longer.int32 (fun _ => rfl) (fun _ _ => rfl) (fun _ _ => rfl) (fun _ => rfl) : Parts (KDec.field Dec.int32 0 (fun t x => { t with PartitionId := x })) (PartitionResult43.first 0) (PartitionResult43.first 1) (fun r y => r = PartitionResult43.first 0 y))
    |>.andThen (.field Longer.int16 (fun _ => rfl) (fun _ _ => rfl) (fun _ _ => rfl) (fun _ => rfl) : Parts (KDec.field Dec.int16 0 (fun t x => { t with ErrorCode := x })) (PartitionResult43.first 1) (PartitionResult43.first 2) (fun r y => r = PartitionResult43.first 1 y))
    |>.andThen (.field Longer.string (fun _ => rfl) (fun _ _ => rfl) (fun _ _ => rfl) (fun _ => rfl) : Parts (KDec.field Dec.string [] (fun t x => { t with ErrorMessage := x })) (PartitionResult43.first 2) (PartitionResult43.first 3) (fun r y => r = PartitionResult43.first 2 y))
theorem PartitionResult43.filled (version : Int16) : FilledStep 8 32770 (PartitionResult43.decode version) :=
  ((FilledStep.field .int32)
    |>.andThen (FilledStep.field .int16)
    |>.andThen (FilledStep.field .string)).mono (by decide) (by decide)
theorem PartitionResult43.part_of (r y : PartitionResult43) (h : (((r = PartitionResult43.first 0 y) ∨ (r = PartitionResult43.first 1 y)) ∨ (r = PartitionResult43.first 2 y))) : PartitionResult43.Part r y :=
  match h with
    | (.inl (.inl h)) => ⟨0, by decide, h⟩
    | (.inl (.inr h)) => ⟨1, by decide, h⟩
    | (.inr h) => ⟨2, by decide, h⟩
theorem PartitionResult43.keeps_holds : PartitionResult43.keeps.Holds PartitionResult43.layout :=
  KeptMsg.holds PartitionResult43.lawful PartitionResult43.sameK (stop := fun v t => PartitionResult43.ends v t 2) (c := fun v t => PartitionResult43.cutAt v t 0) (fun _ _ _ => rfl) PartitionResult43.cutsK (c0 := PartitionResult43.first 0) rfl PartitionResult43.partsK PartitionResult43.part_of PartitionResult43.filled (by decide) (by decide)

/-- message/messages.gen.go:10781-10801 `ReplicaElectionResult43.Decode`, with the receiver kept -/
def ReplicaElectionResult43.decodeK (version : Int16) : KDec ReplicaElectionResult43 :=
    KDec.field Dec.string [] (fun t x => { t with Topic := x }) ;|>
    KDec.fieldStructs (PartitionResult43.decodeK version {}) {} (fun t x => { t with PartitionResult := x })

/-- Where the fields of `ReplicaElectionResult43` end. -/
def ReplicaElectionResult43.ends (version : Int16) (t : ReplicaElectionResult43) : Nat → Nat :=
  Cut.ends 0 [Wire.string t.Topic,
    Wire.array (PartitionResult43.wire version) t.PartitionResult]

/-- What is left of `t` if only its first `n` bytes are there. -/
def ReplicaElectionResult43.cut (version : Int16) (n : Nat) (t : ReplicaElectionResult43) : ReplicaElectionResult43 :=
  { Topic := Cut.field n (t.ends version 0) t.Topic [],
    PartitionResult := Cut.array n (t.ends version 0) (PartitionResult43.wire version) (fun x => x.seen version {}) {} t.PartitionResult }

/-- The same after the first `k` statements of `Decode`. -/
def ReplicaElectionResult43.cutAt (version : Int16) (t : ReplicaElectionResult43) (k n : Nat) : ReplicaElectionResult43 :=
  { Topic := upto k 0 (Cut.field n (t.ends version 0) t.Topic []) [],
    PartitionResult := upto k 1 (Cut.array n (t.ends version 0) (PartitionResult43.wire version) (fun x => x.seen version {}) {} t.PartitionResult) none }

/-- The first `k` fields of `y`, and zeros. -/
def ReplicaElectionResult43.first (k : Nat) (y : ReplicaElectionResult43) : ReplicaElectionResult43 :=
  { Topic := upto k 0 y.Topic [],
    PartitionResult := upto k 1 y.PartitionResult none }

/-- `r` is a beginning of `y`, and zeros. -/
def ReplicaElectionResult43.Part (r y : ReplicaElectionResult43) : Prop :=
  (∃ k, k < 2 ∧ r = y.first k) ∨
    Cut.begun {} (fun t => t.PartitionResult) (fun t x => { t with PartitionResult := x }) (ReplicaElectionResult43.first 1) r y

/-- `ReplicaElectionResult43` with its receiver kept. -/
def ReplicaElectionResult43.keeps : KeptMsg ReplicaElectionResult43.type := { decode := ReplicaElectionResult43.decodeK, cut := ReplicaElectionResult43.cut, Part := ReplicaElectionResult43.Part }

theorem ReplicaElectionResult43.sameK (version : Int16) : KStep (ReplicaElectionResult43.decodeK version) (ReplicaElectionResult43.decode version) :=
  (KStep.field)
    |>.andThen (KStep.structs (fun _ => rfl) (PartitionResult43.sameK version {}))
theorem ReplicaElectionResult43.cutsK (version : Int16) (t : ReplicaElectionResult43) (h : t.Fits version) :
    Cuts (ReplicaElectionResult43.decodeK version) 0 (ReplicaElectionResult43.wire version t) (ReplicaElectionResult43.ends version t 1) (ReplicaElectionResult43.cutAt version t 0) (ReplicaElectionResult43.cutAt version t 2) :=
  (.field (reads_string h.Topic) (fun _ => rfl) (fun _ => rfl) : Cuts _ 0 _ (ReplicaElectionResult43.ends version t 0) (ReplicaElectionResult43.cutAt version t 0) (ReplicaElectionResult43.cutAt version t 1))
    |>.andThen (.structs (PartitionResult43.sameK version {}) (fun x hx => PartitionResult43.reads version x hx {}) h.PartitionResult (fun _ => rfl) (fun _ => rfl) : Cuts _ (ReplicaElectionResult43.ends version t 0) _ (ReplicaElectionResult43.ends version t 1) (ReplicaElectionResult43.cutAt version t 1) (ReplicaElectionResult43.cutAt version t 2))
theorem ReplicaElectionResult43.partsK (version : Int16) : Parts (ReplicaElectionResult43.decodeK version) (ReplicaElectionResult43.first 0) (ReplicaElectionResult43.first 2) (fun r y => ((r = ReplicaElectionResult43.first 0 y) ∨ (r = ReplicaElectionResult43.first 1 y ∨ Cut.begun {} (fun t => t.PartitionResult) (fun t x => { t with PartitionResult := x }) (ReplicaElectionResult43.first 1) r y))) :=
  (.field Longer.string (fun _ => rfl) (fun _ _ => rfl) (fun _ _ => rfl) (fun _ => rfl) : Parts (KDec.field Dec.string [] (fun t x => { t with Topic := x })) (ReplicaElectionResult43.first 0) (ReplicaElectionResult43.first 1) (fun r y => r = ReplicaElectionResult43.first 0 y))
    |>.andThen (.structs (get := fun (t : ReplicaElectionResult43) => t.PartitionResult) ((PartitionResult43.partsK version).longer {}) (fun _ => rfl) (fun _ => rfl) (fun _ _ => rfl) (fun _ _ => rfl) (fun _ _ => rfl) (fun _ => rfl) (fun _ => rfl) : Parts (KDec.fieldStructs (PartitionResult43.decodeK version {}) {} (fun t x => { t with PartitionResult := x })) (ReplicaElectionResult43.first 1) (ReplicaElectionResult43.first 2) (fun r y => r = ReplicaElectionResult43.first 1 y ∨ Cut.begun {} (fun t => t.PartitionResult) (fun t x => { t with PartitionResult := x }) (ReplicaElectionResult43.first 1) r y))
theorem ReplicaElectionResult43.filled (version : Int16) : FilledStep 6 17179901958 (ReplicaElectionResult43.decode version) :=
  ((FilledStep.field .string)
    |>.andThen (FilledStep.structs (PartitionResult43.filled version {}))).mono (by decide) (by decide)
theorem ReplicaElectionResult43.part_of (r y : ReplicaElectionResult43) (h : ((r = ReplicaElectionResult43.first 0 y) ∨ (r = ReplicaElectionResult43.first 1 y ∨ Cut.begun {} (fun t => t.PartitionResult) (fun t x => { t with PartitionResult := x }) (ReplicaElectionResult43.first 1) r y))) : ReplicaElectionResult43.Part r y :=
  match h with
    | (.inl h) => .inl ⟨0, by decide, h⟩
    | (.inr (.inl h)) => .inl ⟨1, by decide, h⟩
    | (.inr (.inr h)) => (.inr h)
theorem ReplicaElectionResult43.keeps_holds : ReplicaElectionResult43.keeps.Holds ReplicaElectionResult43.layout :=
  KeptMsg.holds ReplicaElectionResult43.lawful ReplicaElectionResult43.sameK (stop := fun v t => ReplicaElectionResult43.ends v t 1) (c := fun v t => ReplicaElectionResult43.cutAt v t 0) (fun _ _ _ => rfl) ReplicaElectionResult43.cutsK (c0 := ReplicaElectionResult43.first 0) rfl ReplicaElectionResult43.partsK ReplicaElectionResult43.part_of ReplicaElectionResult43.filled (by decide) (by decide)

/-- message/messages.gen.go:10725-10751 `ElectLeadersResponse.Decode`, with the receiver kept -/
def ElectLeadersResponse.decodeK (version : Int16) : KDec ElectLeadersResponse :=
    KDec.field Dec.int32 0 (fun t x => { t with ThrottleTimeMs := x }) ;|>
    KDec.onlyIf (version ≥ 1) (KDec.field Dec.int16 0 (fun t x => { t with ErrorCode := x })) ;|>
    KDec.fieldStructs (ReplicaElectionResult43.decodeK version {}) {} (fun t x => { t with ReplicaElectionResults := x })

/-- Where the fields of `ElectLeadersResponse` end. -/
def ElectLeadersResponse.ends (version : Int16) (t : ElectLeadersResponse) : Nat → Nat :=
  Cut.ends 0 [Wire.int32 t.ThrottleTimeMs,
    Wire.when (version ≥ 1) (Wire.int16 t.ErrorCode),
    Wire.array (ReplicaElectionResult43.wire version) t.ReplicaElectionResults]

/-- What is left of `t` if only its first `n` bytes are there. -/
def ElectLeadersResponse.cut (version : Int16) (n : Nat) (t : ElectLeadersResponse) : ElectLeadersResponse :=
  { ThrottleTimeMs := Cut.field n (t.ends version 0) t.ThrottleTimeMs 0,
    ErrorCode := Cut.gate (version ≥ 1) (Cut.field n (t.ends version 1) t.ErrorCode 0) 0,
    ReplicaElectionResults := Cut.array n (t.ends version 1) (ReplicaElectionResult43.wire version) (fun x => x.seen version {}) {} t.ReplicaElectionResults }

/-- The same after the first `k` statements of `Decode`. -/
def ElectLeadersResponse.cutAt (version : Int16) (t : ElectLeadersResponse) (k n : Nat) : ElectLeadersResponse :=
  { ThrottleTimeMs := upto k 0 (Cut.field n (t.ends version 0) t.ThrottleTimeMs 0) 0,
    ErrorCode := upto k 1 (Cut.gate (version ≥ 1) (Cut.field n (t.ends version 1) t.ErrorCode 0) 0) 0,
    ReplicaElectionResults := upto k 2 (Cut.array n (t.ends version 1) (ReplicaElectionResult43.wire version) (fun x => x.seen version {}) {} t.ReplicaElectionResults) none }

/-- The first `k` fields of `y`, and zeros. -/
def ElectLeadersResponse.first (k : Nat) (y : ElectLeadersResponse) : ElectLeadersResponse :=
  { ThrottleTimeMs := upto k 0 y.ThrottleTimeMs 0,
    ErrorCode := upto k 1 y.ErrorCode 0,
    ReplicaElectionResults := upto k 2 y.ReplicaElectionResults none }

/-- `r` is a beginning of `y`, and zeros. -/
def ElectLeadersResponse.Part (r y : ElectLeadersResponse) : Prop :=
  (∃ k, k < 3 ∧ r = y.first k) ∨
    Cut.begun {} (fun t => t.ReplicaElectionResults) (fun t x => { t with ReplicaElectionResults := x }) (ElectLeadersResponse.first 2) r y

/-- `ElectLeadersResponse` with its receiver kept. -/
def ElectLeadersResponse.keeps : KeptMsg ElectLeadersResponse.type := { decode := ElectLeadersResponse.decodeK, cut := ElectLeadersResponse.cut, Part := ElectLeadersResponse.Part }

theorem ElectLeadersResponse.sameK (version : Int16) : KStep (ElectLeadersResponse.decodeK version) (ElectLeadersResponse.decode version) :=
  (KStep.field)
    |>.andThen (KStep.onlyIf (KStep.field))
    |>.andThen (KStep.structs (fun _ => rfl) (ReplicaElectionResult43.sameK version {}))
theorem ElectLeadersResponse.cutsK (version : Int16) (t : ElectLeadersResponse) (h : t.Fits version) :
    Cuts (ElectLeadersResponse.decodeK version) 0 (ElectLeadersResponse.wire version t) (ElectLeadersResponse.ends version t 2) (ElectLeadersResponse.cutAt version t 0) (ElectLeadersResponse.cutAt version t 3) :=
  (.field (reads_int32 t.ThrottleTimeMs) (fun _ => rfl) (fun _ => rfl) : Cuts _ 0 _ (ElectLeadersResponse.ends version t 0) (ElectLeadersResponse.cutAt version t 0) (ElectLeadersResponse.cutAt version t 1))
    |>.andThen (.optField (fun _ => reads_int16 t.ErrorCode) (fun _ => rfl) (fun _ => rfl) : Cuts _ (ElectLeadersResponse.ends version t 0) _ (ElectLeadersResponse.ends version t 1) (ElectLeadersResponse.cutAt version t 1) (ElectLeadersResponse.cutAt version t 2))
    |>.andThen (.structs (ReplicaElectionResult43.sameK version {}) (fun x hx => ReplicaElectionResult43.reads version x hx {}) h.ReplicaElectionResults (fun _ => rfl) (fun _ => rfl) : Cuts _ (ElectLeadersResponse.ends version t 1) _ (ElectLeadersResponse.ends version t 2) (ElectLeadersResponse.cutAt version t 2) (ElectLeadersResponse.cutAt version t 3))
theorem ElectLeadersResponse.partsK (version : Int16) : Parts (ElectLeadersResponse.decodeK version) (ElectLeadersResponse.first 0) (ElectLeadersResponse.first 3) (fun r y => (((r = ElectLeadersResponse.first 0 y) ∨ (r = ElectLeadersResponse.first 1 y)) ∨ (r = ElectLeadersResponse.first 2 y ∨ Cut.begun {} (fun t => t.ReplicaElectionResults) (fun t x => { t with ReplicaElectionResults := x }) (ElectLeadersResponse.first 2) r y))) :=
  (.field Longer.int32 (fun _ => rfl) (fun _ _ => rfl) (fun _ _ => rfl) (fun _ => rfl) : Parts (KDec.field Dec.int32 0 (fun t x => { t with ThrottleTimeMs := x })) (ElectLeadersResponse.first 0) (ElectLeadersResponse.first 1) (fun r y => r = ElectLeadersResponse.first 0 y))
    |>.andThen (.onlyIf (.field Longer.int16 (fun _ => rfl) (fun _ _ => rfl) (fun _ _ => rfl) (fun _ => rfl)) (fun _ => rfl) : Parts (KDec.onlyIf (version ≥ 1) (KDec.field Dec.int16 0 (fun t x => { t with ErrorCode := x }))) (ElectLeadersResponse.first 1) (ElectLeadersResponse.first 2) (fun r y => r = ElectLeadersResponse.first 1 y))
    |>.andThen (.structs (get := fun (t : ElectLeadersResponse) => t.ReplicaElectionResults) ((ReplicaElectionResult43.partsK version).longer {}) (fun _ => rfl) (fun _ => rfl) (fun _ _ => rfl) (fun _ _ => rfl) (fun _ _ => rfl) (fun _ => rfl) (fun _ => rfl) : Parts (KDec.fieldStructs (ReplicaElectionResult43.decodeK version {}) {} (fun t x => { t with ReplicaElectionResults := x })) (ElectLeadersResponse.first 2) (ElectLeadersResponse.first 3) (fun r y => r = ElectLeadersResponse.first 2 y ∨ Cut.begun {} (fun t => t.ReplicaElectionResults) (fun t x => { t with ReplicaElectionResults := x }) (ElectLeadersResponse.first 2) r y))
theorem ElectLeadersResponse.filled (version : Int16) : FilledStep 10 30064803850 (ElectLeadersResponse.decode version) :=
  ((FilledStep.field .int32)
    |>.andThen (FilledStep.onlyIf (FilledStep.field .int16))
    |>.andThen (FilledStep.structs (ReplicaElectionResult43.filled version {}))).mono (by decide) (by decide)
theorem ElectLeadersResponse.part_of (r y : ElectLeadersResponse) (h : (((r = ElectLeadersResponse.first 0 y) ∨ (r = ElectLeadersResponse.first 1 y)) ∨ (r = ElectLeadersResponse.first 2 y ∨ Cut.begun {} (fun t => t.ReplicaElectionResults) (fun t x => { t with ReplicaElectionResults := x }) (ElectLeadersResponse.first 2) r y))) : ElectLeadersResponse.Part r y :=
  match h with
    | (.inl (.inl h)) => .inl ⟨0, by decide, h⟩
    | (.inl (.inr h)) => .inl ⟨1, by decide, h⟩
    | (.inr (.inl h)) => .inl ⟨2, by decide, h⟩
    | (.inr (.inr h)) => (.inr h)
theorem ElectLeadersResponse.keeps_holds : ElectLeadersResponse.keeps.Holds ElectLeadersResponse.layout :=
  KeptMsg.holds ElectLeadersResponse.lawful ElectLeadersResponse.sameK (stop := fun v t => ElectLeadersResponse.ends v t 2) (c := fun v t => ElectLeadersResponse.cutAt v t 0) (fun _ _ _ => rfl) ElectLeadersResponse.cutsK (c0 := ElectLeadersResponse.first 0) rfl ElectLeadersResponse.partsK ElectLeadersResponse.part_of ElectLeadersResponse.filled (by decide) (by decide)

/-- The structures of the ElectLeaders messages. -/
def keptElectLeaders : List (Σ (M : MsgType) (_ : Layout M), KeptMsg M) :=
  [⟨ElectLeadersRequest.type, ElectLeadersRequest.layout, ElectLeadersRequest.keeps⟩,
   ⟨TopicPartitions43.type, TopicPartitions43.layout, TopicPartitions43.keeps⟩,
   ⟨ElectLeadersResponse.type, ElectLeadersResponse.layout, ElectLeadersResponse.keeps⟩,
   ⟨ReplicaElectionResult43.type, ReplicaElectionResult43.layout, ReplicaElectionResult43.keeps⟩,
   ⟨PartitionResult43.type, PartitionResult43.layout, PartitionResult43.keeps⟩]
theorem keptElectLeaders_holds : ∀ p ∈ keptElectLeaders, p.2.2.Holds p.2.1 := by
  unfold keptElectLeaders
  simp only [List.forall_mem_cons]
  exact ⟨ElectLeadersRequest.keeps_holds, TopicPartitions43.keeps_holds, ElectLeadersResponse.keeps_holds, ReplicaElectionResult43.keeps_holds, PartitionResult43.keeps_holds, fun _ h => absurd h (by simp)⟩

end Kafka.Msg
