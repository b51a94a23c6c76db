import Verif.Message.KeptLemmas
import Verif.Gen.Proof.AlterPartitionReassignments
/-!
Generated by tools/gen_messages.py: what is in the AlterPartitionReassignments messages after an error.
-/
set_option linter.unusedVariables false
namespace Kafka.Msg

/-- message/messages.gen.go:11210-11221 `ReassignablePartition45.Decode`, with the receiver kept -/
def ReassignablePartition45.decodeK (_version : Int16) : KDec ReassignablePartition45 :=
    KDec.field Dec.int32 0 (fun t x => { t with PartitionIndex := x }) ;|>
    KDec.field Dec.int32Array none (fun t x => { t with Replicas := x })

/-- Where the fields of `ReassignablePartition45` end. -/
def ReassignablePartition45.ends (_version : Int16) (t : ReassignablePartition45) : Nat → Nat :=
  Cut.ends 0 [Wire.int32 t.PartitionIndex,
    Wire.int32Array t.Replicas]

/-- What is left of `t` if only its first `n` bytes are there. -/
def ReassignablePartition45.cut (version : Int16) (n : Nat) (t : ReassignablePartition45) : ReassignablePartition45 :=
  { PartitionIndex := Cut.field n (t.ends version 0) t.PartitionIndex 0,
    Replicas := Cut.field n (t.ends version 1) t.Replicas none }

/-- The same after the first `k` statements of `Decode`. -/
def ReassignablePartition45.cutAt (version : Int16) (t : ReassignablePartition45) (k n : Nat) : ReassignablePartition45 :=
  { PartitionIndex := upto k 0 (Cut.field n (t.ends version 0) t.PartitionIndex 0) 0,
    Replicas := upto k 1 (Cut.field n (t.ends version 1) t.Replicas none) none }

/-- The first `k` fields of `y`, and zeros. -/
def ReassignablePartition45.first (k : Nat) (y : ReassignablePartition45) : ReassignablePartition45 :=
  { PartitionIndex := upto k 0 y.PartitionIndex 0,
    Replicas := upto k 1 y.Replicas none }

/-- `r` is a beginning of `y`, and zeros. -/
def ReassignablePartition45.Part (r y : ReassignablePartition45) : Prop :=
  (∃ k, k < 2 ∧ r = y.first k)

/-- `ReassignablePartition45` with its receiver kept. -/
def ReassignablePartition45.keeps : KeptMsg ReassignablePartition45.type := { decode := ReassignablePartition45.decodeK, cut := ReassignablePartition45.cut, Part := ReassignablePartition45.Part }

theorem ReassignablePartition45.sameK (version : Int16) : KStep (ReassignablePartition45.decodeK version) (ReassignablePartition45.decode version) :=
  (KStep.field)
    |>.andThen (KStep.field)
theorem ReassignablePartition45.cutsK (version : Int16) (t : ReassignablePartition45) (h : t.Fits version) :
    Cuts (ReassignablePartition45.decodeK version) 0 (ReassignablePartition45.wire version t) (ReassignablePartition45.ends version t 1) (ReassignablePartition45.cutAt version t 0) (ReassignablePartition45.cutAt version t 2) :=
  (.field (reads_int32 t.PartitionIndex) (fun _ => rfl) (fun _ => rfl) : Cuts _ 0 _ (ReassignablePartition45.ends version t 0) (ReassignablePartition45.cutAt version t 0) (ReassignablePartition45.cutAt version t 1))
    |>.andThen (.field (reads_int32Array h.Replicas) (fun _ => rfl) (fun _ => rfl) : Cuts _ (ReassignablePartition45.ends version t 0) _ (ReassignablePartition45.ends version t 1) (ReassignablePartition45.cutAt version t 1) (ReassignablePartition45.cutAt version t 2))
theorem ReassignablePartition45.partsK (version : Int16) : Parts (ReassignablePartition45.decodeK version) (ReassignablePartition45.first 0) (ReassignablePartition45.first 2) (fun r y => ((r = ReassignablePartition45.first 0 y) ∨ (r = ReassignablePartition45.first 1 y))) :=
  (.field Longer.int32 (fun _ => rfl) (fun _ _ => rfl) (fun _ _ => rfl) (fun _ => rfl) : Parts (KDec.field Dec.int32 0 (fun t x => { t with PartitionIndex := x })) (ReassignablePartition45.first 0) (ReassignablePartition45.first 1) (fun r y => r = ReassignablePartition45.first 0 y))
    |>.andThen (.field Longer.int32Array (fun _ => rfl) (fun _ _ => rfl) (fun _ _ => rfl) (fun _ => rfl) : Parts (KDec.field Dec.int32Array none (fun t x => { t with Replicas := x })) (ReassignablePartition45.first 1) (ReassignablePartition45.first 2) (fun r y => r = ReassignablePartition45.first 1 y))
theorem ReassignablePartition45.filled (version : Int16) : FilledStep 8 8589934600 (ReassignablePartition45.decode version) :=
  ((FilledStep.field .int32)
    |>.andThen (FilledStep.field .int32Array)).mono (by decide) (by decide)
theorem ReassignablePartition45.part_of (r y : ReassignablePartition45) (h : ((r = ReassignablePartition45.first 0 y) ∨ (r = ReassignablePartition45.first 1 y))) : ReassignablePartition45.Part r y :=
  match h with
    | (.inl h) => ⟨0, by decide, h⟩
    | (.inr h) => ⟨1, by decide, h⟩
theorem ReassignablePartition45.keeps_holds : ReassignablePartition45.keeps.Holds ReassignablePartition45.layout :=
  KeptMsg.holds ReassignablePartition45.lawful ReassignablePartition45.sameK (stop := fun v t => ReassignablePartition45.ends v t 1) (c := fun v t => ReassignablePartition45.cutAt v t 0) (fun _ _ _ => rfl) ReassignablePartition45.cutsK (c0 := ReassignablePartition45.first 0) rfl ReassignablePartition45.partsK ReassignablePartition45.part_of ReassignablePartition45.filled (by decide) (by decide)

/-- message/messages.gen.go:11168-11188 `ReassignableTopic45.Decode`, with the receiver kept -/
def ReassignableTopic45.decodeK (version : Int16) : KDec ReassignableTopic45 :=
    KDec.field Dec.string [] (fun t x => { t with Name := x }) ;|>
    KDec.fieldStructs (ReassignablePartition45.decodeK version {}) {} (fun t x => { t with Partitions := x })

/-- Where the fields of `ReassignableTopic45` end. -/
def ReassignableTopic45.ends (version : Int16) (t : ReassignableTopic45) : Nat → Nat :=
  Cut.ends 0 [Wire.string t.Name,
    Wire.array (ReassignablePartition45.wire version) t.Partitions]

/-- What is left of `t` if only its first `n` bytes are there. -/
def ReassignableTopic45.cut (version : Int16) (n : Nat) (t : ReassignableTopic45) : ReassignableTopic45 :=
  { Name := Cut.field n (t.ends version 0) t.Name [],
    Partitions := Cut.array n (t.ends version 0) (ReassignablePartition45.wire version) (fun x => x.seen version {}) {} t.Partitions }

/-- The same after the first `k` statements of `Decode`. -/
def ReassignableTopic45.cutAt (version : Int16) (t : ReassignableTopic45) (k n : Nat) : ReassignableTopic45 :=
  { Name := upto k 0 (Cut.field n (t.ends version 0) t.Name []) [],
    Partitions := upto k 1 (Cut.array n (t.ends version 0) (ReassignablePartition45.wire version) (fun x => x.seen version {}) {} t.Partitions) none }

/-- The first `k` fields of `y`, and zeros. -/
def ReassignableTopic45.first (k : Nat) (y : ReassignableTopic45) : ReassignableTopic45 :=
  { Name := upto k 0 y.Name [],
    Partitions := upto k 1 y.Partitions none }

/-- `r` is a beginning of `y`, and zeros. -/
def ReassignableTopic45.Part (r y : ReassignableTopic45) : Prop :=
  (∃ k, k < 2 ∧ r = y.first k) ∨
    Cut.begun {} (fun t => t.Partitions) (fun t x => { t with Partitions := x }) (ReassignableTopic45.first 1) r y

/-- `ReassignableTopic45` with its receiver kept. -/
def ReassignableTopic45.keeps : KeptMsg ReassignableTopic45.type := { decode := ReassignableTopic45.decodeK, cut := ReassignableTopic45.cut, Part := ReassignableTopic45.Part }

theorem ReassignableTopic45.sameK (version : Int16) : KStep (ReassignableTopic45.decodeK version) (ReassignableTopic45.decode version) :=
  (KStep.field)
    |>.andThen (KStep.structs (fun _ => rfl) (ReassignablePartition45.sameK version {}))
theorem ReassignableTopic45.cutsK (version : Int16) (t : ReassignableTopic45) (h : t.Fits version) :
    Cuts (ReassignableTopic45.decodeK version) 0 (ReassignableTopic45.wire version t) (ReassignableTopic45.ends version t 1) (ReassignableTopic45.cutAt version t 0) (ReassignableTopic45.cutAt version t 2) :=
  (.field (reads_string h.Name) (fun _ => rfl) (fun _ => rfl) : Cuts _ 0 _ (ReassignableTopic45.ends version t 0) (ReassignableTopic45.cutAt version t 0) (ReassignableTopic45.cutAt version t 1))
    |>.andThen (.structs (ReassignablePartition45.sameK version {}) (fun x hx => ReassignablePartition45.reads version x hx {}) h.Partitions (fun _ => rfl) (fun _ => rfl) : Cuts _ (ReassignableTopic45.ends version t 0) _ (ReassignableTopic45.ends version t 1) (ReassignableTopic45.cutAt version t 1) (ReassignableTopic45.cutAt version t 2))
theorem ReassignableTopic45.partsK (version : Int16) : Parts (ReassignableTopic45.decodeK version) (ReassignableTopic45.first 0) (ReassignableTopic45.first 2) (fun r y => ((r = ReassignableTopic45.first 0 y) ∨ (r = ReassignableTopic45.first 1 y ∨ Cut.begun {} (fun t => t.Partitions) (fun t x => { t with Partitions := x }) (ReassignableTopic45.first 1) r y))) :=
  (.field Longer.string (fun _ => rfl) (fun _ _ => rfl) (fun _ _ => rfl) (fun _ => rfl) : Parts (KDec.field Dec.string [] (fun t x => { t with Name := x })) (ReassignableTopic45.first 0) (ReassignableTopic45.first 1) (fun r y => r = ReassignableTopic45.first 0 y))
    |>.andThen (.structs (get := fun (t : ReassignableTopic45) => t.Partitions) ((ReassignablePartition45.partsK version).longer {}) (fun _ => rfl) (fun _ => rfl) (fun _ _ => rfl) (fun _ _ => rfl) (fun _ _ => rfl) (fun _ => rfl) (fun _ => rfl) : Parts (KDec.fieldStructs (ReassignablePartition45.decodeK version {}) {} (fun t x => { t with Partitions := x })) (ReassignableTopic45.first 1) (ReassignableTopic45.first 2) (fun r y => r = ReassignableTopic45.first 1 y ∨ Cut.begun {} (fun t => t.Partitions) (fun t x => { t with Partitions := x }) (ReassignableTopic45.first 1) r y))
theorem ReassignableTopic45.filled (version : Int16) : FilledStep 6 25769803788 (ReassignableTopic45.decode version) :=
  ((FilledStep.field .string)
    |>.andThen (FilledStep.structs (ReassignablePartition45.filled version {}))).mono (by decide) (by decide)
theorem ReassignableTopic45.part_of (r y : ReassignableTopic45) (h : ((r = ReassignableTopic45.first 0 y) ∨ (r = ReassignableTopic45.first 1 y ∨ Cut.begun {} (fun t => t.Partitions) (fun t x => { t with Partitions := x }) (ReassignableTopic45.first 1) r y))) : ReassignableTopic45.Part r y :=
  match h with
    | (.inl h) => .inl ⟨0, by decide, h⟩
    | (.inr (.inl h)) => .inl ⟨1, by decide, h⟩
    | (.inr (.inr h)) => (.inr h)
theorem ReassignableTopic45.keeps_holds : ReassignableTopic45.keeps.Holds ReassignableTopic45.layout :=
  KeptMsg.holds ReassignableTopic45.lawful ReassignableTopic45.sameK (stop := fun v t => ReassignableTopic45.ends v t 1) (c := fun v t => ReassignableTopic45.cutAt v t 0) (fun _ _ _ => rfl) ReassignableTopic45.cutsK (c0 := ReassignableTopic45.first 0) rfl ReassignableTopic45.partsK ReassignableTopic45.part_of ReassignableTopic45.filled (by decide) (by decide)

/-- message/messages.gen.go:11118-11138 `AlterPartitionReassignmentsRequest.Decode`, with the receiver kept -/
def AlterPartitionReassignmentsRequest.decodeK (version : Int16) : KDec AlterPartitionReassignmentsRequest :=
    KDec.field Dec.int32 0 (fun t x => { t with TimeoutMs := x }) ;|>
    KDec.fieldStructs (ReassignableTopic45.decodeK version {}) {} (fun t x => { t with Topics := x })

/-- Where the fields of `AlterPartitionReassignmentsRequest` end. -/
def AlterPartitionReassignmentsRequest.ends (version : Int16) (t : AlterPartitionReassignmentsRequest) : Nat → Nat :=
  Cut.ends 0 [Wire.int32 t.TimeoutMs,
    Wire.array (ReassignableTopic45.wire version) t.Topics]

/-- What is left of `t` if only its first `n` bytes are there. -/
def AlterPartitionReassignmentsRequest.cut (version : Int16) (n : Nat) (t : AlterPartitionReassignmentsRequest) : AlterPartitionReassignmentsRequest :=
  { TimeoutMs := Cut.field n (t.ends version 0) t.TimeoutMs 0,
    Topics := Cut.array n (t.ends version 0) (ReassignableTopic45.wire version) (fun x => x.seen version {}) {} t.Topics }

/-- The same after the first `k` statements of `Decode`. -/
def AlterPartitionReassignmentsRequest.cutAt (version : Int16) (t : AlterPartitionReassignmentsRequest) (k n : Nat) : AlterPartitionReassignmentsRequest :=
  { TimeoutMs := upto k 0 (Cut.field n (t.ends version 0) t.TimeoutMs 0) 0,
    Topics := upto k 1 (Cut.array n (t.ends version 0) (ReassignableTopic45.wire version) (fun x => x.seen version {}) {} t.Topics) none }

/-- The first `k` fields of `y`, and zeros. -/
def AlterPartitionReassignmentsRequest.first (k : Nat) (y : AlterPartitionReassignmentsRequest) : AlterPartitionReassignmentsRequest :=
  { TimeoutMs := upto k 0 y.TimeoutMs 0,
    Topics := upto k 1 y.Topics none }

/-- `r` is a beginning of `y`, and zeros. -/
def AlterPartitionReassignmentsRequest.Part (r y : AlterPartitionReassignmentsRequest) : Prop :=
  (∃ k, k < 2 ∧ r = y.first k) ∨
    Cut.begun {} (fun t => t.Topics) (fun t x => { t with Topics := x }) (AlterPartitionReassignmentsRequest.first 1) r y

/-- `AlterPartitionReassignmentsRequest` with its receiver kept. -/
def AlterPartitionReassignmentsRequest.keeps : KeptMsg AlterPartitionReassignmentsRequest.type := { decode := AlterPartitionReassignmentsRequest.decodeK, cut := AlterPartitionReassignmentsRequest.cut, Part := AlterPartitionReassignmentsRequest.Part }

theorem AlterPartitionReassignmentsRequest.sameK (version : Int16) : KStep (AlterPartitionReassignmentsRequest.decodeK version) (AlterPartitionReassignmentsRequest.decode version) :=
  (KStep.field)
    |>.andThen (KStep.structs (fun _ => rfl) (ReassignableTopic45.sameK version {}))
theorem AlterPartitionReassignmentsRequest.cutsK (version : Int16) (t : AlterPartitionReassignmentsRequest) (h : t.Fits version) :
    Cuts (AlterPartitionReassignmentsRequest.decodeK version) 0 (AlterPartitionReassignmentsRequest.wire version t) (AlterPartitionReassignmentsRequest.ends version t 1) (AlterPartitionReassignmentsRequest.cutAt version t 0) (AlterPartitionReassignmentsRequest.cutAt version t 2) :=
  (.field (reads_int32 t.TimeoutMs) (fun _ => rfl) (fun _ => rfl) : Cuts _ 0 _ (AlterPartitionReassignmentsRequest.ends version t 0) (AlterPartitionReassignmentsRequest.cutAt version t 0) (AlterPartitionReassignmentsRequest.cutAt version t 1))
    |>.andThen (.structs (ReassignableTopic45.sameK version {}) (fun x hx => ReassignableTopic45.reads version x hx {}) h.Topics (fun _ => rfl) (fun _ => rfl) : Cuts _ (AlterPartitionReassignmentsRequest.ends version t 0) _ (AlterPartitionReassignmentsRequest.ends version t 1) (AlterPartitionReassignmentsRequest.cutAt version t 1) (AlterPartitionReassignmentsRequest.cutAt version t 2))
theorem AlterPartitionReassignmentsRequest.partsK (version : Int16) : Parts (AlterPartitionReassignmentsRequest.decodeK version) (AlterPartitionReassignmentsRequest.first 0) (AlterPartitionReassignmentsRequest.first 2) (fun r y => ((r = AlterPartitionReassignmentsRequest.first 0 y) ∨ (r = AlterPartitionReassignmentsRequest.first 1 y ∨ Cut.begun {} (fun t => t.Topics) (fun t x => { t with Topics := x }) (AlterPartitionReassignmentsRequest.first 1) r y))) :=
  (.field Longer.int32 (fun _ => rfl) (fun _ _ => rfl) (fun _ _ => rfl) (fun _ => rfl) : Parts (KDec.field Dec.int32 0 (fun t x => { t with TimeoutMs := x })) (AlterPartitionReassignmentsRequest.first 0) (AlterPartitionReassignmentsRequest.first 1) (fun r y => r = AlterPartitionReassignmentsRequest.first 0 y))
    |>.andThen (.structs (get := fun (t : AlterPartitionReassignmentsRequest) => t.Topics) ((ReassignableTopic45.partsK version).longer {}) (fun _ => rfl) (fun _ => rfl) (fun _ _ => rfl) (fun _ _ => rfl) (fun _ _ => rfl) (fun _ => rfl) (fun _ => rfl) : Parts (KDec.fieldStructs (ReassignableTopic45.decodeK version {}) {} (fun t x => { t with Topics := x })) (AlterPartitionReassignmentsRequest.first 1) (AlterPartitionReassignmentsRequest.first 2) (fun r y => r = AlterPartitionReassignmentsRequest.first 1 y ∨ Cut.begun {} (fun t => t.Topics) (fun t x => { t with Topics := x }) (AlterPartitionReassignmentsRequest.first 1) r y))
theorem AlterPartitionReassignmentsRequest.filled (version : Int16) : FilledStep 8 38654705680 (AlterPartitionReassignmentsRequest.decode version) :=
  ((FilledStep.field .int32)
    |>.andThen (FilledStep.structs (ReassignableTopic45.filled version {}))).mono (by decide) (by decide)
theorem AlterPartitionReassignmentsRequest.part_of (r y : AlterPartitionReassignmentsRequest) (h : ((r = AlterPartitionReassignmentsRequest.first 0 y) ∨ (r = AlterPartitionReassignmentsRequest.first 1 y ∨ Cut.begun {} (fun t => t.Topics) (fun t x => { t with Topics := x }) (AlterPartitionReassignmentsRequest.first 1) r y))) : AlterPartitionReassignmentsRequest.Part r y :=
  match h with
    | (.inl h) => .inl ⟨0, by decide, h⟩
    | (.inr (.inl h)) => .inl ⟨1, by decide, h⟩
    | (.inr (.inr h)) => (.inr h)
theorem AlterPartitionReassignmentsRequest.keeps_holds : AlterPartitionReassignmentsRequest.keeps.Holds AlterPartitionReassignmentsRequest.layout :=
  KeptMsg.holds AlterPartitionReassignmentsRequest.lawful AlterPartitionReassignmentsRequest.sameK (stop := fun v t => AlterPartitionReassignmentsRequest.ends v t 1) (c := fun v t => AlterPartitionReassignmentsRequest.cutAt v t 0) (fun _ _ _ => rfl) AlterPartitionReassignmentsRequest.cutsK (c0 := AlterPartitionReassignmentsRequest.first 0) rfl AlterPartitionReassignmentsRequest.partsK AlterPartitionReassignmentsRequest.part_of AlterPartitionReassignmentsRequest.filled (by decide) (by decide)

/-- message/messages.gen.go:11361-11376 `ReassignablePartitionResponse45.Decode`, with the receiver kept -/
def ReassignablePartitionResponse45.decodeK (_version : Int16) : KDec ReassignablePartitionResponse45 :=
    KDec.field Dec.int32 0 (fun t x => { t with PartitionIndex := x }) ;|>
    KDec.field Dec.int16 0 (fun t x => { t with ErrorCode := x }) ;|>
    KDec.field Dec.string [] (fun t x => { t with ErrorMessage := x })

/-- Where the fields of `ReassignablePartitionResponse45` end. -/
def ReassignablePartitionResponse45.ends (_version : Int16) (t : ReassignablePartitionResponse45) : Nat → Nat :=
  Cut.ends 0 [Wire.int32 t.PartitionIndex,
    Wire.int16 t.ErrorCode,
    Wire.string t.ErrorMessage]

/-- What is left of `t` if only its first `n` bytes are there. -/
def ReassignablePartitionResponse45.cut (version : Int16) (n : Nat) (t : ReassignablePartitionResponse45) : ReassignablePartitionResponse45 :=
  { PartitionIndex := Cut.field n (t.ends version 0) t.PartitionIndex 0,
    ErrorCode := Cut.field n (t.ends version 1) t.ErrorCode 0,
    ErrorMessage := Cut.field n (t.ends version 2) t.ErrorMessage [] }

/-- The same after the first `k` statements of `Decode`. -/
def ReassignablePartitionResponse45.cutAt (version : Int16) (t : ReassignablePartitionResponse45) (k n : Nat) : ReassignablePartitionResponse45 :=
  { PartitionIndex := upto k 0 (Cut.field n (t.ends version 0) t.PartitionIndex 0) 0,
    ErrorCode := upto k 1 (Cut.field n (t.ends version 1) t.ErrorCode 0) 0,
    ErrorMessage := upto k 2 (Cut.field n (t.ends version 2) t.ErrorMessage []) [] }

/-- The first `k` fields of `y`, and zeros. -/
def ReassignablePartitionResponse45.first (k : Nat) (y : ReassignablePartitionResponse45) : ReassignablePartitionResponse45 :=
  { PartitionIndex := upto k 0 y.PartitionIndex 0,
    ErrorCode := upto k 1 y.ErrorCode 0,
    ErrorMessage := upto k 2 y.ErrorMessage [] }

/-- `r` is a beginning of `y`, and zeros. -/
def ReassignablePartitionResponse45.Part (r y : ReassignablePartitionResponse45) : Prop :=
  (∃ k, k < 3 ∧ r = y.first k)

/-- `ReassignablePartitionResponse45` with its receiver kept. -/
def ReassignablePartitionResponse45.keeps : KeptMsg ReassignablePartitionResponse45.type := { decode := ReassignablePartitionResponse45.decodeK, cut := ReassignablePartitionResponse45.cut, Part := ReassignablePartitionResponse45.Part }

theorem ReassignablePartitionResponse45.sameK (version : Int16) : KStep (ReassignablePartitionResponse45.decodeK version) (ReassignablePartitionResponse45.decode version) :=
  (KStep.field)
    |>.andThen (KStep.field)
    |>.andThen (KStep.field)
theorem ReassignablePartitionResponse45.cutsK (version : Int16) (t : ReassignablePartitionResponse45) (h : t.Fits version) :
    Cuts (ReassignablePartitionResponse45.decodeK version) 0 (ReassignablePartitionResponse45.wire version t) (ReassignablePartitionResponse45.ends version t 2) (ReassignablePartitionResponse45.cutAt version t 0) (ReassignablePartitionResponse45.cutAt version t 3) :=
  (.field (reads_int32 t.PartitionIndex) (fun _ => rfl) (fun _ => rfl) : Cuts _ 0 _ (ReassignablePartitionResponse45.ends version t 0) (ReassignablePartitionResponse45.cutAt version t 0) (ReassignablePartitionResponse45.cutAt version t 1))
    |>.andThen (.field (reads_int16 t.ErrorCode) (fun _ => rfl) (fun _ => rfl) : Cuts _ (ReassignablePartitionResponse45.ends version t 0) _ (ReassignablePartitionResponse45.ends version t 1) (ReassignablePartitionResponse45.cutAt version t 1) (ReassignablePartitionResponse45.cutAt version t 2))
    |>.andThen (.field (reads_string h.ErrorMessage) (fun _ => rfl) (fun _ => rfl) : Cuts _ (ReassignablePartitionResponse45.ends version t 1) _ (ReassignablePartitionResponse45.ends version t 2) (ReassignablePartitionResponse45.cutAt version t 2) (ReassignablePartitionResponse45.cutAt version t 3))
theorem ReassignablePartitionResponse45.partsK (version : Int16) : Parts (ReassignablePartitionResponse45.decodeK version) (ReassignablePartitionResponse45.first 0) (ReassignablePartitionResponse45.first 3) (fun r y => (((r = ReassignablePartitionResponse45.first 0 y) ∨ (r = ReassignablePartitionResponse45.first 1 y)) ∨ (r = ReassignablePartitionResponse45.first 2 y))) :=
  (.field Longer.int32 (fun _ => rfl) (fun _ _ => rfl) (fun _ _ => rfl) (fun _ => rfl) : Parts (KDec.field Dec.int32 0 (fun t x => { t with PartitionIndex := x })) (ReassignablePartitionResponse45.first 0) (ReassignablePartitionResponse45.first 1) (fun r y => r = ReassignablePartitionResponse45.first 0 y))
    |>.andThen (.field Longer.int16 (fun _ => rfl) (fun _ _ => rfl) (fun _ _ => rfl) (fun _ => rfl) : Parts (KDec.field Dec.int16 0 (fun t x => { t with ErrorCode := x })) (ReassignablePartitionResponse45.first 1) (ReassignablePartitionResponse45.first 2) (fun r y => r = ReassignablePartitionResponse45.first 1 y))
    |>.andThen (.field Longer.string (fun _ => rfl) (fun _ _ => rfl) (fun _ _ => rfl) (fun _ => rfl) : Parts (KDec.field Dec.string [] (fun t x => { t with ErrorMessage := x })) (ReassignablePartitionResponse45.first 2) (ReassignablePartitionResponse45.first 3) (fun r y => r = ReassignablePartitionResponse45.first 2 y))
theorem ReassignablePartitionResponse45.filled (version : Int16) : FilledStep 8 32770 (ReassignablePartitionResponse45.decode version) :=
  ((FilledStep.field .int32)
    |>.andThen (FilledStep.field .int16)
    |>.andThen (FilledStep.field .string)).mono (by decide) (by decide)
theorem ReassignablePartitionResponse45.part_of (r y : ReassignablePartitionResponse45) (h : (((r = ReassignablePartitionResponse45.first 0 y) ∨ (r = ReassignablePartitionResponse45.first 1 y)) ∨ (r = ReassignablePartitionResponse45.first 2 y))) : ReassignablePartitionResponse45.Part r y :=
  match h with
    | (.inl (.inl h)) => ⟨0, by decide, h⟩
    | (.inl (.inr h)) => ⟨1, by decide, h⟩
    | (.inr h) => ⟨2, by decide, h⟩
theorem ReassignablePartitionResponse45.keeps_holds : ReassignablePartitionResponse45.keeps.Holds ReassignablePartitionResponse45.layout :=
  KeptMsg.holds ReassignablePartitionResponse45.lawful ReassignablePartitionResponse45.sameK (stop := fun v t => ReassignablePartitionResponse45.ends v t 2) (c := fun v t => ReassignablePartitionResponse45.cutAt v t 0) (fun _ _ _ => rfl) ReassignablePartitionResponse45.cutsK (c0 := ReassignablePartitionResponse45.first 0) rfl ReassignablePartitionResponse45.partsK ReassignablePartitionResponse45.part_of ReassignablePartitionResponse45.filled (by decide) (by decide)

/-- message/messages.gen.go:11316-11336 `ReassignableTopicResponse45.Decode`, with the receiver kept -/
def ReassignableTopicResponse45.decodeK (version : Int16) : KDec ReassignableTopicResponse45 :=
    KDec.field Dec.string [] (fun t x => { t with Name := x }) ;|>
    KDec.fieldStructs (ReassignablePartitionResponse45.decodeK version {}) {} (fun t x => { t with Partitions := x })

/-- Where the fields of `ReassignableTopicResponse45` end. -/
def ReassignableTopicResponse45.ends (version : Int16) (t : ReassignableTopicResponse45) : Nat → Nat :=
  Cut.ends 0 [Wire.string t.Name,
    Wire.array (ReassignablePartitionResponse45.wire version) t.Partitions]

/-- What is left of `t` if only its first `n` bytes are there. -/
def ReassignableTopicResponse45.cut (version : Int16) (n : Nat) (t : ReassignableTopicResponse45) : ReassignableTopicResponse45 :=
  { Name := Cut.field n (t.ends version 0) t.Name [],
    Partitions := Cut.array n (t.ends version 0) (ReassignablePartitionResponse45.wire version) (fun x => x.seen version {}) {} t.Partitions }

/-- The same after the first `k` statements of `Decode`. -/
def ReassignableTopicResponse45.cutAt (version : Int16) (t : ReassignableTopicResponse45) (k n : Nat) : ReassignableTopicResponse45 :=
  { Name := upto k 0 (Cut.field n (t.ends version 0) t.Name []) [],
    Partitions := upto k 1 (Cut.array n (t.ends version 0) (ReassignablePartitionResponse45.wire version) (fun x => x.seen version {}) {} t.Partitions) none }

/-- The first `k` fields of `y`, and zeros. -/
def ReassignableTopicResponse45.first (k : Nat) (y : ReassignableTopicResponse45) : ReassignableTopicResponse45 :=
  { Name := upto k 0 y.Name [],
    Partitions := upto k 1 y.Partitions none }

/-- `r` is a beginning of `y`, and zeros. -/
def ReassignableTopicResponse45.Part (r y : ReassignableTopicResponse45) : Prop :=
  (∃ k, k < 2 ∧ r = y.first k) ∨
    Cut.begun {} (fun t => t.Partitions) (fun t x => { t with Partitions := x }) (ReassignableTopicResponse45.first 1) r y

/-- `ReassignableTopicResponse45` with its receiver kept. -/
def ReassignableTopicResponse45.keeps : KeptMsg ReassignableTopicResponse45.type := { decode := ReassignableTopicResponse45.decodeK, cut := ReassignableTopicResponse45.cut, Part := ReassignableTopicResponse45.Part }

theorem ReassignableTopicResponse45.sameK (version : Int16) : KStep (ReassignableTopicResponse45.decodeK version) (ReassignableTopicResponse45.decode version) :=
  (KStep.field)
    |>.andThen (KStep.structs (fun _ => rfl) (ReassignablePartitionResponse45.sameK version {}))
theorem ReassignableTopicResponse45.cutsK (version : Int16) (t : ReassignableTopicResponse45) (h : t.Fits version) :
    Cuts (ReassignableTopicResponse45.decodeK version) 0 (ReassignableTopicResponse45.wire version t) (ReassignableTopicResponse45.ends version t 1) (ReassignableTopicResponse45.cutAt version t 0) (ReassignableTopicResponse45.cutAt version t 2) :=
  (.field (reads_string h.Name) (fun _ => rfl) (fun _ => rfl) : Cuts _ 0 _ (ReassignableTopicResponse45.ends version t 0) (ReassignableTopicResponse45.cutAt version t 0) (ReassignableTopicResponse45.cutAt version t 1))
    |>.andThen (.structs (ReassignablePartitionResponse45.sameK version {}) (fun x hx => ReassignablePartitionResponse45.reads version x hx {}) h.Partitions (fun _ => rfl) (fun _ => rfl) : Cuts _ (ReassignableTopicResponse45.ends version t 0) _ (ReassignableTopicResponse45.ends version t 1) (ReassignableTopicResponse45.cutAt version t 1) (ReassignableTopicResponse45.cutAt version t 2))
theorem ReassignableTopicResponse45.partsK (version : Int16) : Parts (ReassignableTopicResponse45.decodeK version) (ReassignableTopicResponse45.first 0) (ReassignableTopicResponse45.first 2) (fun r y => ((r = ReassignableTopicResponse45.first 0 y) ∨ (r = ReassignableTopicResponse45.first 1 y ∨ Cut.begun {} (fun t => t.Partitions) (fun t x => { t with Partitions := x }) (ReassignableTopicResponse45.first 1) r y))) :=
  (.field Longer.string (fun _ => rfl) (fun _ _ => rfl) (fun _ _ => rfl) (fun _ => rfl) : Parts (KDec.field Dec.string [] (fun t x => { t with Name := x })) (ReassignableTopicResponse45.first 0) (ReassignableTopicResponse45.first 1) (fun r y => r = ReassignableTopicResponse45.first 0 y))
    |>.andThen (.structs (get := fun (t : ReassignableTopicResponse45) => t.Partitions) ((ReassignablePartitionResponse45.partsK version).longer {}) (fun _ => rfl) (fun _ => rfl) (fun _ _ => rfl) (fun _ _ => rfl) (fun _ _ => rfl) (fun _ => rfl) (fun _ => rfl) : Parts (KDec.fieldStructs (ReassignablePartitionResponse45.decodeK version {}) {} (fun t x => { t with Partitions := x })) (ReassignableTopicResponse45.first 1) (ReassignableTopicResponse45.first 2) (fun r y => r = ReassignableTopicResponse45.first 1 y ∨ Cut.begun {} (fun t => t.Partitions) (fun t x => { t with Partitions := x }) (ReassignableTopicResponse45.first 1) r y))
theorem ReassignableTopicResponse45.filled (version : Int16) : FilledStep 6 17179901958 (ReassignableTopicResponse45.decode version) :=
  ((FilledStep.field .string)
    |>.andThen (FilledStep.structs (ReassignablePartitionResponse45.filled version {}))).mono (by decide) (by decide)
theorem ReassignableTopicResponse45.part_of (r y : ReassignableTopicResponse45) (h : ((r = ReassignableTopicResponse45.first 0 y) ∨ (r = ReassignableTopicResponse45.first 1 y ∨ Cut.begun {} (fun t => t.Partitions) (fun t x => { t with Partitions := x }) (ReassignableTopicResponse45.first 1) r y))) : ReassignableTopicResponse45.Part r y :=
  match h with
    | (.inl h) => .inl ⟨0, by decide, h⟩
    | (.inr (.inl h)) => .inl ⟨1, by decide, h⟩
    | (.inr (.inr h)) => (.inr h)
theorem ReassignableTopicResponse45.keeps_holds : ReassignableTopicResponse45.keeps.Holds ReassignableTopicResponse45.layout :=
  KeptMsg.holds ReassignableTopicResponse45.lawful ReassignableTopicResponse45.sameK (stop := fun v t => ReassignableTopicResponse45.ends v t 1) (c := fun v t => ReassignableTopicResponse45.cutAt v t 0) (fun _ _ _ => rfl) ReassignableTopicResponse45.cutsK (c0 := ReassignableTopicResponse45.first 0) rfl ReassignableTopicResponse45.partsK ReassignableTopicResponse45.part_of ReassignableTopicResponse45.filled (by decide) (by decide)

/-- message/messages.gen.go:11258-11286 `AlterPartitionReassignmentsResponse.Decode`, with the receiver kept -/
def AlterPartitionReassignmentsResponse.decodeK (version : Int16) : KDec AlterPartitionReassignmentsResponse :=
    KDec.field Dec.int32 0 (fun t x => { t with ThrottleTimeMs := x }) ;|>
    KDec.field Dec.int16 0 (fun t x => { t with ErrorCode := x }) ;|>
    KDec.field Dec.string [] (fun t x => { t with ErrorMessage := x }) ;|>
    KDec.fieldStructs (ReassignableTopicResponse45.decodeK version {}) {} (fun t x => { t with Responses := x })

/-- Where the fields of `AlterPartitionReassignmentsResponse` end. -/
def AlterPartitionReassignmentsResponse.ends (version : Int16) (t : AlterPartitionReassignmentsResponse) : Nat → Nat :=
  Cut.ends 0 [Wire.int32 t.ThrottleTimeMs,
    Wire.int16 t.ErrorCode,
    Wire.string t.ErrorMessage,
    Wire.array (ReassignableTopicResponse45.wire version) t.Responses]

/-- What is left of `t` if only its first `n` bytes are there. -/
def AlterPartitionReassignmentsResponse.cut (version : Int16) (n : Nat) (t : AlterPartitionReassignmentsResponse) : AlterPartitionReassignmentsResponse :=
  { ThrottleTimeMs := Cut.field n (t.ends version 0) t.ThrottleTimeMs 0,
    ErrorCode := Cut.field n (t.ends version 1) t.ErrorCode 0,
    ErrorMessage := Cut.field n (t.ends version 2) t.ErrorMessage [],
    Responses := Cut.array n (t.ends version 2) (ReassignableTopicResponse45.wire version) (fun x => x.seen version {}) {} t.Responses }

/-- The same after the first `k` statements of `Decode`. -/
def AlterPartitionReassignmentsResponse.cutAt (version : Int16) (t : AlterPartitionReassignmentsResponse) (k n : Nat) : AlterPartitionReassignmentsResponse :=
  { ThrottleTimeMs := upto k 0 (Cut.field n (t.ends version 0) t.ThrottleTimeMs 0) 0,
    ErrorCode := upto k 1 (Cut.field n (t.ends version 1) t.ErrorCode 0) 0,
    ErrorMessage := upto k 2 (Cut.field n (t.ends version 2) t.ErrorMessage []) [],
    Responses := upto k 3 (Cut.array n (t.ends version 2) (ReassignableTopicResponse45.wire version) (fun x => x.seen version {}) {} t.Responses) none }

/-- The first `k` fields of `y`, and zeros. -/
def AlterPartitionReassignmentsResponse.first (k : Nat) (y : AlterPartitionReassignmentsResponse) : AlterPartitionReassignmentsResponse :=
  { ThrottleTimeMs := upto k 0 y.ThrottleTimeMs 0,
    ErrorCode := upto k 1 y.ErrorCode 0,
    ErrorMessage := upto k 2 y.ErrorMessage [],
    Responses := upto k 3 y.Responses none }

/-- `r` is a beginning of `y`, and zeros. -/
def AlterPartitionReassignmentsResponse.Part (r y : AlterPartitionReassignmentsResponse) : Prop :=
  (∃ k, k < 4 ∧ r = y.first k) ∨
    Cut.begun {} (fun t => t.Responses) (fun t x => { t with Responses := x }) (AlterPartitionReassignmentsResponse.first 3) r y

/-- `AlterPartitionReassignmentsResponse` with its receiver kept. -/
def AlterPartitionReassignmentsResponse.keeps : KeptMsg AlterPartitionReassignmentsResponse.type := { decode := AlterPartitionReassignmentsResponse.decodeK, cut := AlterPartitionReassignmentsResponse.cut, Part := AlterPartitionReassignmentsResponse.Part }

theorem AlterPartitionReassignmentsResponse.sameK (version : Int16) : KStep (AlterPartitionReassignmentsResponse.decodeK version) (AlterPartitionReassignmentsResponse.decode version) :=
  (KStep.field)
    |>.andThen (KStep.field)
    |>.andThen (KStep.field)
    |>.andThen (KStep.structs (fun _ => rfl) (ReassignableTopicResponse45.sameK version {}))
theorem AlterPartitionReassignmentsResponse.cutsK (version : Int16) (t : AlterPartitionReassignmentsResponse) (h : t.Fits version) :
    Cuts (AlterPartitionReassignmentsResponse.decodeK version) 0 (AlterPartitionReassignmentsResponse.wire version t) (AlterPartitionReassignmentsResponse.ends version t 3) (AlterPartitionReassignmentsResponse.cutAt version t 0) (AlterPartitionReassignmentsResponse.cutAt version t 4) :=
  (.field (reads_int32 t.ThrottleTimeMs) (fun _ => rfl) (fun _ => rfl) : Cuts _ 0 _ (AlterPartitionReassignmentsResponse.ends version t 0) (AlterPartitionReassignmentsResponse.cutAt version t 0) (AlterPartitionReassignmentsResponse.cutAt version t 1))
    |>.andThen (.field (reads_int16 t.ErrorCode) (fun _ => rfl) (fun _ => rfl) : Cuts _ (AlterPartitionReassignmentsResponse.ends version t 0) _ (AlterPartitionReassignmentsResponse.ends version t 1) (AlterPartitionReassignmentsResponse.cutAt version t 1) (AlterPartitionReassignmentsResponse.cutAt version t 2))
    |>.andThen (.field (reads_string h.ErrorMessage) (fun _ => rfl) (fun _ => rfl) : Cuts _ (AlterPartitionReassignmentsResponse.ends version t 1) _ (AlterPartitionReassignmentsResponse.ends version t 2) (AlterPartitionReassignmentsResponse.cutAt version t 2) (AlterPartitionReassignmentsResponse.cutAt version t 3))
    |>.andThen (.structs (ReassignableTopicResponse45.sameK version {}) (fun x hx => ReassignableTopicResponse45.reads version x hx {}) h.Responses (fun _ => rfl) (fun _ => rfl) : Cuts _ (AlterPartitionReassignmentsResponse.ends version t 2) _ (AlterPartitionReassignmentsResponse.ends version t 3) (AlterPartitionReassignmentsResponse.cutAt version t 3) (AlterPartitionReassignmentsResponse.cutAt version t 4))
theorem AlterPartitionReassignmentsResponse.partsK (version : Int16) : Parts (AlterPartitionReassignmentsResponse.decodeK version) (AlterPartitionReassignmentsResponse.first 0) (AlterPartitionReassignmentsResponse.first 4) (fun r y => ((((r = AlterPartitionReassignmentsResponse.first 0 y) ∨ (r = AlterPartitionReassignmentsResponse.first 1 y)) ∨ (r = AlterPartitionReassignmentsResponse.first 2 y)) ∨ (r = AlterPartitionReassignmentsResponse.first 3 y ∨ Cut.begun {} (fun t => t.Responses) (fun t x => { t with Responses := x }) (AlterPartitionReassignmentsResponse.first 3) r y))) :=
  (.field Longer.int32 (fun _ => rfl) (fun _ _ => rfl) (fun _ _ => rfl) (fun _ => rfl) : Parts (KDec.field Dec.int32 0 (fun t x => { t with ThrottleTimeMs := x })) (AlterPartitionReassignmentsResponse.first 0) (AlterPartitionReassignmentsResponse.first 1) (fun r y => r = AlterPartitionReassignmentsResponse.first 0 y))
    |>.andThen (.field Longer.int16 (fun _ => rfl) (fun _ _ => rfl) (fun _ _ => rfl) (fun _ => rfl) : Parts (KDec.field Dec.int16 0 (fun t x => { t with ErrorCode := x })) (AlterPartitionReassignmentsResponse.first 1) (AlterPartitionReassignmentsResponse.first 2) (fun r y => r = AlterPartitionReassignmentsResponse.first 1 y))
    |>.andThen (.field Longer.string (fun _ => rfl) (fun _ _ => rfl) (fun _ _ => rfl) (fun _ => rfl) : Parts (KDec.field Dec.string [] (fun t x => { t with ErrorMessage := x })) (AlterPartitionReassignmentsResponse.first 2) (AlterPartitionReassignmentsResponse.first 3) (fun r y => r = AlterPartitionReassignmentsResponse.first 2 y))
    |>.andThen (.structs (get := fun (t : AlterPartitionReassignmentsResponse) => t.Responses) ((ReassignableTopicResponse45.partsK version).longer {}) (fun _ => rfl) (fun _ => rfl) (fun _ _ => rfl) (fun _ _ => rfl) (fun _ _ => rfl) (fun _ => rfl) (fun _ => rfl) : Parts (KDec.fieldStructs (ReassignableTopicResponse45.decodeK version {}) {} (fun t x => { t with Responses := x })) (AlterPartitionReassignmentsResponse.first 3) (AlterPartitionReassignmentsResponse.first 4) (fun r y => r = AlterPartitionReassignmentsResponse.first 3 y ∨ Cut.begun {} (fun t => t.Responses) (fun t x => { t with Responses := x }) (AlterPartitionReassignmentsResponse.first 3) r y))
theorem AlterPartitionReassignmentsResponse.filled (version : Int16) : FilledStep 12 30064803850 (AlterPartitionReassignmentsResponse.decode version) :=
  ((FilledStep.field .int32)
    |>.andThen (FilledStep.field .int16)
    |>.andThen (FilledStep.field .string)
    |>.andThen (FilledStep.structs (ReassignableTopicResponse45.filled version {}))).mono (by decide) (by decide)
theorem AlterPartitionReassignmentsResponse.part_of (r y : AlterPartitionReassignmentsResponse) (h : ((((r = AlterPartitionReassignmentsResponse.first 0 y) ∨ (r = AlterPartitionReassignmentsResponse.first 1 y)) ∨ (r = AlterPartitionReassignmentsResponse.first 2 y)) ∨ (r = AlterPartitionReassignmentsResponse.first 3 y ∨ Cut.begun {} (fun t => t.Responses) (fun t x => { t with Responses := x }) (AlterPartitionReassignmentsResponse.first 3) r y))) : AlterPartitionReassignmentsResponse.Part r y :=
  match h with
    | (.inl (.inl (.inl h))) => .inl ⟨0, by decide, h⟩
    | (.inl (.inl (.inr h))) => .inl ⟨1, by decide, h⟩
    | (.inl (.inr h)) => .inl ⟨2, by decide, h⟩
    | (.inr (.inl h)) => .inl ⟨3, by decide, h⟩
    | (.inr (.inr h)) => (.inr h)
theorem AlterPartitionReassignmentsResponse.keeps_holds : AlterPartitionReassignmentsResponse.keeps.Holds AlterPartitionReassignmentsResponse.layout :=
  KeptMsg.holds AlterPartitionReassignmentsResponse.lawful AlterPartitionReassignmentsResponse.sameK (stop := fun v t => AlterPartitionReassignmentsResponse.ends v t 3) (c := fun v t => AlterPartitionReassignmentsResponse.cutAt v t 0) (fun _ _ _ => rfl) AlterPartitionReassignmentsResponse.cutsK (c0 := AlterPartitionReassignmentsResponse.first 0) rfl AlterPartitionReassignmentsResponse.partsK AlterPartitionReassignmentsResponse.part_of AlterPartitionReassignmentsResponse.filled (by decide) (by decide)

/-- The structures of the AlterPartitionReassignments messages. -/
def keptAlterPartitionReassignments : List (Σ (M : MsgType) (_ : Layout M), KeptMsg M) :=
  [⟨AlterPartitionReassignmentsRequest.type, AlterPartitionReassignmentsRequest.layout, AlterPartitionReassignmentsRequest.keeps⟩,
   ⟨ReassignableTopic45.type, ReassignableTopic45.layout, ReassignableTopic45.keeps⟩,
   ⟨ReassignablePartition45.type, ReassignablePartition45.layout, ReassignablePartition45.keeps⟩,
   ⟨AlterPartitionReassignmentsResponse.type, AlterPartitionReassignmentsResponse.layout, AlterPartitionReassignmentsResponse.keeps⟩,
   ⟨ReassignableTopicResponse45.type, ReassignableTopicResponse45.layout, ReassignableTopicResponse45.keeps⟩,
   ⟨ReassignablePartitionResponse45.type, ReassignablePartitionResponse45.layout, ReassignablePartitionResponse45.keeps⟩]
theorem keptAlterPartitionReassignments_holds : ∀ p ∈ keptAlterPartitionReassignments, p.2.2.Holds p.2.1 := by
  unfold keptAlterPartitionReassignments
  simp only [List.forall_mem_cons]
  exact ⟨AlterPartitionReassignmentsRequest.keeps_holds, ReassignableTopic45.keeps_holds, ReassignablePartition45.keeps_holds, AlterPartitionReassignmentsResponse.keeps_holds, ReassignableTopicResponse45.keeps_holds, ReassignablePartitionResponse45.keeps_holds, fun _ h => absurd h (by simp)⟩

end Kafka.Msg
