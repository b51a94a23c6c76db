import Verif.Message.KeptLemmas
import Verif.Gen.Proof.AlterReplicaLogDirs
/-!
Generated by tools/gen_messages.py: what is in the AlterReplicaLogDirs messages after an error.
-/
set_option linter.unusedVariables false
namespace Kafka.Msg

/-- message/messages.gen.go:9162-9173 `AlterReplicaLogDirTopic34.Decode`, with the receiver kept -/
def AlterReplicaLogDirTopic34.decodeK (_version : Int16) : KDec AlterReplicaLogDirTopic34 :=
    KDec.field Dec.string [] (fun t x => { t with Name := x }) ;|>
    KDec.field Dec.int32Array none (fun t x => { t with Partitions := x })

/-- Where the fields of `AlterReplicaLogDirTopic34` end. -/
def AlterReplicaLogDirTopic34.ends (_version : Int16) (t : AlterReplicaLogDirTopic34) : Nat → Nat :=
  Cut.ends 0 [Wire.string t.Name,
    Wire.int32Array t.Partitions]

/-- What is left of `t` if only its first `n` bytes are there. -/
def AlterReplicaLogDirTopic34.cut (version : Int16) (n : Nat) (t : AlterReplicaLogDirTopic34) : AlterReplicaLogDirTopic34 :=
  { Name := Cut.field n (t.ends version 0) t.Name [],
    Partitions := Cut.field n (t.ends version 1) t.Partitions none }

/-- The same after the first `k` statements of `Decode`. -/
def AlterReplicaLogDirTopic34.cutAt (version : Int16) (t : AlterReplicaLogDirTopic34) (k n : Nat) : AlterReplicaLogDirTopic34 :=
  { Name := upto k 0 (Cut.field n (t.ends version 0) t.Name []) [],
    Partitions := upto k 1 (Cut.field n (t.ends version 1) t.Partitions none) none }

/-- The first `k` fields of `y`, and zeros. -/
def AlterReplicaLogDirTopic34.first (k : Nat) (y : AlterReplicaLogDirTopic34) : AlterReplicaLogDirTopic34 :=
  { Name := upto k 0 y.Name [],
    Partitions := upto k 1 y.Partitions none }

/-- `r` is a beginning of `y`, and zeros. -/
def AlterReplicaLogDirTopic34.Part (r y : AlterReplicaLogDirTopic34) : Prop :=
  (∃ k, k < 2 ∧ r = y.first k)

/-- `AlterReplicaLogDirTopic34` with its receiver kept. -/
def AlterReplicaLogDirTopic34.keeps : KeptMsg AlterReplicaLogDirTopic34.type := { decode := AlterReplicaLogDirTopic34.decodeK, cut := AlterReplicaLogDirTopic34.cut, Part := AlterReplicaLogDirTopic34.Part }

theorem AlterReplicaLogDirTopic34.sameK (version : Int16) : KStep (AlterReplicaLogDirTopic34.decodeK version) (AlterReplicaLogDirTopic34.decode version) :=
  (KStep.field)
    |>.andThen (KStep.field)
theorem AlterReplicaLogDirTopic34.cutsK (version : Int16) (t : AlterReplicaLogDirTopic34) (h : t.Fits version) :
    Cuts (AlterReplicaLogDirTopic34.decodeK version) 0 (AlterReplicaLogDirTopic34.wire version t) (AlterReplicaLogDirTopic34.ends version t 1) (AlterReplicaLogDirTopic34.cutAt version t 0) (AlterReplicaLogDirTopic34.cutAt version t 2) :=
  (.field (reads_string h.Name) (fun _ => rfl) (fun _ => rfl) : Cuts _ 0 _ (AlterReplicaLogDirTopic34.ends version t 0) (AlterReplicaLogDirTopic34.cutAt version t 0) (AlterReplicaLogDirTopic34.cutAt version t 1))
    |>.andThen (.field (reads_int32Array h.Partitions) (fun _ => rfl) (fun _ => rfl) : Cuts _ (AlterReplicaLogDirTopic34.ends version t 0) _ (AlterReplicaLogDirTopic34.ends version t 1) (AlterReplicaLogDirTopic34.cutAt version t 1) (AlterReplicaLogDirTopic34.cutAt version t 2))
theorem AlterReplicaLogDirTopic34.partsK (version : Int16) : Parts (AlterReplicaLogDirTopic34.decodeK version) (AlterReplicaLogDirTopic34.first 0) (AlterReplicaLogDirTopic34.first 2) (fun r y => ((r = AlterReplicaLogDirTopic34.first 0 y) ∨ (r = AlterReplicaLogDirTopic34.first 1 y))) :=
  (.field Longer.string (fun _ => rfl) (fun _ _ => rfl) (fun _ _ => rfl) (fun _ => rfl) : Parts (KDec.field Dec.string [] (fun t x => { t with Name := x })) (AlterReplicaLogDirTopic34.first 0) (AlterReplicaLogDirTopic34.first 1) (fun r y => r = AlterReplicaLogDirTopic34.first 0 y))
    |>.andThen (.field Longer.int32Array (fun _ => rfl) (fun _ _ => rfl) (fun _ _ => rfl) (fun _ => rfl) : Parts (KDec.field Dec.int32Array none (fun t x => { t with Partitions := x })) (AlterReplicaLogDirTopic34.first 1) (AlterReplicaLogDirTopic34.first 2) (fun r y => r = AlterReplicaLogDirTopic34.first 1 y))
theorem AlterReplicaLogDirTopic34.filled (version : Int16) : FilledStep 6 8589934600 (AlterReplicaLogDirTopic34.decode version) :=
  ((FilledStep.field .string)
    |>.andThen (FilledStep.field .int32Array)).mono (by decide) (by decide)
theorem AlterReplicaLogDirTopic34.part_of (r y : AlterReplicaLogDirTopic34) (h : ((r = AlterReplicaLogDirTopic34.first 0 y) ∨ (r = AlterReplicaLogDirTopic34.first 1 y))) : AlterReplicaLogDirTopic34.Part r y :=
  match h with
    | (.inl h) => ⟨0, by decide, h⟩
    | (.inr h) => ⟨1, by decide, h⟩
theorem AlterReplicaLogDirTopic34.keeps_holds : AlterReplicaLogDirTopic34.keeps.Holds AlterReplicaLogDirTopic34.layout :=
  KeptMsg.holds AlterReplicaLogDirTopic34.lawful AlterReplicaLogDirTopic34.sameK (stop := fun v t => AlterReplicaLogDirTopic34.ends v t 1) (c := fun v t => AlterReplicaLogDirTopic34.cutAt v t 0) (fun _ _ _ => rfl) AlterReplicaLogDirTopic34.cutsK (c0 := AlterReplicaLogDirTopic34.first 0) rfl AlterReplicaLogDirTopic34.partsK AlterReplicaLogDirTopic34.part_of AlterReplicaLogDirTopic34.filled (by decide) (by decide)

/-- message/messages.gen.go:9120-9140 `AlterReplicaLogDir34.Decode`, with the receiver kept -/
def AlterReplicaLogDir34.decodeK (version : Int16) : KDec AlterReplicaLogDir34 :=
    KDec.field Dec.string [] (fun t x => { t with Path := x }) ;|>
    KDec.fieldStructs (AlterReplicaLogDirTopic34.decodeK version {}) {} (fun t x => { t with Topics := x })

/-- Where the fields of `AlterReplicaLogDir34` end. -/
def AlterReplicaLogDir34.ends (version : Int16) (t : AlterReplicaLogDir34) : Nat → Nat :=
  Cut.ends 0 [Wire.string t.Path,
    Wire.array (AlterReplicaLogDirTopic34.wire version) t.Topics]

/-- What is left of `t` if only its first `n` bytes are there. -/
def AlterReplicaLogDir34.cut (version : Int16) (n : Nat) (t : AlterReplicaLogDir34) : AlterReplicaLogDir34 :=
  { Path := Cut.field n (t.ends version 0) t.Path [],
    Topics := Cut.array n (t.ends version 0) (AlterReplicaLogDirTopic34.wire version) (fun x => x.seen version {}) {} t.Topics }

/-- The same after the first `k` statements of `Decode`. -/
def AlterReplicaLogDir34.cutAt (version : Int16) (t : AlterReplicaLogDir34) (k n : Nat) : AlterReplicaLogDir34 :=
  { Path := upto k 0 (Cut.field n (t.ends version 0) t.Path []) [],
    Topics := upto k 1 (Cut.array n (t.ends version 0) (AlterReplicaLogDirTopic34.wire version) (fun x => x.seen version {}) {} t.Topics) none }

/-- The first `k` fields of `y`, and zeros. -/
def AlterReplicaLogDir34.first (k : Nat) (y : AlterReplicaLogDir34) : AlterReplicaLogDir34 :=
  { Path := upto k 0 y.Path [],
    Topics := upto k 1 y.Topics none }

/-- `r` is a beginning of `y`, and zeros. -/
def AlterReplicaLogDir34.Part (r y : AlterReplicaLogDir34) : Prop :=
  (∃ k, k < 2 ∧ r = y.first k) ∨
    Cut.begun {} (fun t => t.Topics) (fun t x => { t with Topics := x }) (AlterReplicaLogDir34.first 1) r y

/-- `AlterReplicaLogDir34` with its receiver kept. -/
def AlterReplicaLogDir34.keeps : KeptMsg AlterReplicaLogDir34.type := { decode := AlterReplicaLogDir34.decodeK, cut := AlterReplicaLogDir34.cut, Part := AlterReplicaLogDir34.Part }

theorem AlterReplicaLogDir34.sameK (version : Int16) : KStep (AlterReplicaLogDir34.decodeK version) (AlterReplicaLogDir34.decode version) :=
  (KStep.field)
    |>.andThen (KStep.structs (fun _ => rfl) (AlterReplicaLogDirTopic34.sameK version {}))
theorem AlterReplicaLogDir34.cutsK (version : Int16) (t : AlterReplicaLogDir34) (h : t.Fits version) :
    Cuts (AlterReplicaLogDir34.decodeK version) 0 (AlterReplicaLogDir34.wire version t) (AlterReplicaLogDir34.ends version t 1) (AlterReplicaLogDir34.cutAt version t 0) (AlterReplicaLogDir34.cutAt version t 2) :=
  (.field (reads_string h.Path) (fun _ => rfl) (fun _ => rfl) : Cuts _ 0 _ (AlterReplicaLogDir34.ends version t 0) (AlterReplicaLogDir34.cutAt version t 0) (AlterReplicaLogDir34.cutAt version t 1))
    |>.andThen (.structs (AlterReplicaLogDirTopic34.sameK version {}) (fun x hx => AlterReplicaLogDirTopic34.reads version x hx {}) h.Topics (fun _ => rfl) (fun _ => rfl) : Cuts _ (AlterReplicaLogDir34.ends version t 0) _ (AlterReplicaLogDir34.ends version t 1) (AlterReplicaLogDir34.cutAt version t 1) (AlterReplicaLogDir34.cutAt version t 2))
theorem AlterReplicaLogDir34.partsK (version : Int16) : Parts (AlterReplicaLogDir34.decodeK version) (AlterReplicaLogDir34.first 0) (AlterReplicaLogDir34.first 2) (fun r y => ((r = AlterReplicaLogDir34.first 0 y) ∨ (r = AlterReplicaLogDir34.first 1 y ∨ Cut.begun {} (fun t => t.Topics) (fun t x => { t with Topics := x }) (AlterReplicaLogDir34.first 1) r y))) :=
  (.field Longer.string (fun _ => rfl) (fun _ _ => rfl) (fun _ _ => rfl) (fun _ => rfl) : Parts (KDec.field Dec.string [] (fun t x => { t with Path := x })) (AlterReplicaLogDir34.first 0) (AlterReplicaLogDir34.first 1) (fun r y => r = AlterReplicaLogDir34.first 0 y))
    |>.andThen (.structs (get := fun (t : AlterReplicaLogDir34) => t.Topics) ((AlterReplicaLogDirTopic34.partsK version).longer {}) (fun _ => rfl) (fun _ => rfl) (fun _ _ => rfl) (fun _ _ => rfl) (fun _ _ => rfl) (fun _ => rfl) (fun _ => rfl) : Parts (KDec.fieldStructs (AlterReplicaLogDirTopic34.decodeK version {}) {} (fun t x => { t with Topics := x })) (AlterReplicaLogDir34.first 1) (AlterReplicaLogDir34.first 2) (fun r y => r = AlterReplicaLogDir34.first 1 y ∨ Cut.begun {} (fun t => t.Topics) (fun t x => { t with Topics := x }) (AlterReplicaLogDir34.first 1) r y))
theorem AlterReplicaLogDir34.filled (version : Int16) : FilledStep 6 21474836492 (AlterReplicaLogDir34.decode version) :=
  ((FilledStep.field .string)
    |>.andThen (FilledStep.structs (AlterReplicaLogDirTopic34.filled version {}))).mono (by decide) (by decide)
theorem AlterReplicaLogDir34.part_of (r y : AlterReplicaLogDir34) (h : ((r = AlterReplicaLogDir34.first 0 y) ∨ (r = AlterReplicaLogDir34.first 1 y ∨ Cut.begun {} (fun t => t.Topics) (fun t x => { t with Topics := x }) (AlterReplicaLogDir34.first 1) r y))) : AlterReplicaLogDir34.Part r y :=
  match h with
    | (.inl h) => .inl ⟨0, by decide, h⟩
    | (.inr (.inl h)) => .inl ⟨1, by decide, h⟩
    | (.inr (.inr h)) => (.inr h)
theorem AlterReplicaLogDir34.keeps_holds : AlterReplicaLogDir34.keeps.Holds AlterReplicaLogDir34.layout :=
  KeptMsg.holds AlterReplicaLogDir34.lawful AlterReplicaLogDir34.sameK (stop := fun v t => AlterReplicaLogDir34.ends v t 1) (c := fun v t => AlterReplicaLogDir34.cutAt v t 0) (fun _ _ _ => rfl) AlterReplicaLogDir34.cutsK (c0 := AlterReplicaLogDir34.first 0) rfl AlterReplicaLogDir34.partsK AlterReplicaLogDir34.part_of AlterReplicaLogDir34.filled (by decide) (by decide)

/-- message/messages.gen.go:9074-9090 `AlterReplicaLogDirsRequest.Decode`, with the receiver kept -/
def AlterReplicaLogDirsRequest.decodeK (version : Int16) : KDec AlterReplicaLogDirsRequest :=
    KDec.fieldStructs (AlterReplicaLogDir34.decodeK version {}) {} (fun t x => { t with Dirs := x })

/-- Where the fields of `AlterReplicaLogDirsRequest` end. -/
def AlterReplicaLogDirsRequest.ends (version : Int16) (t : AlterReplicaLogDirsRequest) : Nat → Nat :=
  Cut.ends 0 [Wire.array (AlterReplicaLogDir34.wire version) t.Dirs]

/-- What is left of `t` if only its first `n` bytes are there. -/
def AlterReplicaLogDirsRequest.cut (version : Int16) (n : Nat) (t : AlterReplicaLogDirsRequest) : AlterReplicaLogDirsRequest :=
  { Dirs := Cut.array n 0 (AlterReplicaLogDir34.wire version) (fun x => x.seen version {}) {} t.Dirs }

/-- The same after the first `k` statements of `Decode`. -/
def AlterReplicaLogDirsRequest.cutAt (version : Int16) (t : AlterReplicaLogDirsRequest) (k n : Nat) : AlterReplicaLogDirsRequest :=
  { Dirs := upto k 0 (Cut.array n 0 (AlterReplicaLogDir34.wire version) (fun x => x.seen version {}) {} t.Dirs) none }

/-- The first `k` fields of `y`, and zeros. -/
def AlterReplicaLogDirsRequest.first (k : Nat) (y : AlterReplicaLogDirsRequest) : AlterReplicaLogDirsRequest :=
  { Dirs := upto k 0 y.Dirs none }

/-- `r` is a beginning of `y`, and zeros. -/
def AlterReplicaLogDirsRequest.Part (r y : AlterReplicaLogDirsRequest) : Prop :=
  (∃ k, k < 1 ∧ r = y.first k) ∨
    Cut.begun {} (fun t => t.Dirs) (fun t x => { t with Dirs := x }) (AlterReplicaLogDirsRequest.first 0) r y

/-- `AlterReplicaLogDirsRequest` with its receiver kept. -/
def AlterReplicaLogDirsRequest.keeps : KeptMsg AlterReplicaLogDirsRequest.type := { decode := AlterReplicaLogDirsRequest.decodeK, cut := AlterReplicaLogDirsRequest.cut, Part := AlterReplicaLogDirsRequest.Part }

theorem AlterReplicaLogDirsRequest.sameK (version : Int16) : KStep (AlterReplicaLogDirsRequest.decodeK version) (AlterReplicaLogDirsRequest.decode version) :=
  KStep.structs (fun _ => rfl) (AlterReplicaLogDir34.sameK version {})
theorem AlterReplicaLogDirsRequest.cutsK (version : Int16) (t : AlterReplicaLogDirsRequest) (h : t.Fits version) :
    Cuts (AlterReplicaLogDirsRequest.decodeK version) 0 (AlterReplicaLogDirsRequest.wire version t) (AlterReplicaLogDirsRequest.ends version t 0) (AlterReplicaLogDirsRequest.cutAt version t 0) (AlterReplicaLogDirsRequest.cutAt version t 1) :=
  (.structs (AlterReplicaLogDir34.sameK version {}) (fun x hx => AlterReplicaLogDir34.reads version x hx {}) h.Dirs (fun _ => rfl) (fun _ => rfl) : Cuts _ 0 _ (AlterReplicaLogDirsRequest.ends version t 0) (AlterReplicaLogDirsRequest.cutAt version t 0) (AlterReplicaLogDirsRequest.cutAt version t 1))
theorem AlterReplicaLogDirsRequest.partsK (version : Int16) : Parts (AlterReplicaLogDirsRequest.decodeK version) (AlterReplicaLogDirsRequest.first 0) (AlterReplicaLogDirsRequest.first 1) (fun r y => (r = AlterReplicaLogDirsRequest.first 0 y ∨ Cut.begun {} (fun t => t.Dirs) (fun t x => { t with Dirs := x }) (AlterReplicaLogDirsRequest.first 0) r y)) :=
  (.structs (get := fun (t : AlterReplicaLogDirsRequest) => t.Dirs) ((AlterReplicaLogDir34.partsK version).longer {}) (fun _ => rfl) (fun _ => rfl) (fun _ _ => rfl) (fun _ _ => rfl) (fun _ _ => rfl) (fun _ => rfl) (fun _ => rfl) : Parts (KDec.fieldStructs (AlterReplicaLogDir34.decodeK version {}) {} (fun t x => { t with Dirs := x })) (AlterReplicaLogDirsRequest.first 0) (AlterReplicaLogDirsRequest.first 1) (fun r y => r = AlterReplicaLogDirsRequest.first 0 y ∨ Cut.begun {} (fun t => t.Dirs) (fun t x => { t with Dirs := x }) (AlterReplicaLogDirsRequest.first 0) r y))
theorem AlterReplicaLogDirsRequest.filled (version : Int16) : FilledStep 4 34359738384 (AlterReplicaLogDirsRequest.decode version) :=
  (FilledStep.structs (AlterReplicaLogDir34.filled version {})).mono (by decide) (by decide)
theorem AlterReplicaLogDirsRequest.part_of (r y : AlterReplicaLogDirsRequest) (h : (r = AlterReplicaLogDirsRequest.first 0 y ∨ Cut.begun {} (fun t => t.Dirs) (fun t x => { t with Dirs := x }) (AlterReplicaLogDirsRequest.first 0) r y)) : AlterReplicaLogDirsRequest.Part r y :=
  match h with
    | (.inl h) => .inl ⟨0, by decide, h⟩
    | (.inr h) => (.inr h)
theorem AlterReplicaLogDirsRequest.keeps_holds : AlterReplicaLogDirsRequest.keeps.Holds AlterReplicaLogDirsRequest.layout :=
  KeptMsg.holds AlterReplicaLogDirsRequest.lawful AlterReplicaLogDirsRequest.sameK (stop := fun v t => AlterReplicaLogDirsRequest.ends v t 0) (c := fun v t => AlterReplicaLogDirsRequest.cutAt v t 0) (fun _ _ _ => rfl) AlterReplicaLogDirsRequest.cutsK (c0 := AlterReplicaLogDirsRequest.first 0) rfl AlterReplicaLogDirsRequest.partsK AlterReplicaLogDirsRequest.part_of AlterReplicaLogDirsRequest.filled (by decide) (by decide)

/-- message/messages.gen.go:9296-9307 `AlterReplicaLogDirPartitionResult34.Decode`, with the receiver kept -/
def AlterReplicaLogDirPartitionResult34.decodeK (_version : Int16) : KDec AlterReplicaLogDirPartitionResult34 :=
    KDec.field Dec.int32 0 (fun t x => { t with PartitionIndex := x }) ;|>
    KDec.field Dec.int16 0 (fun t x => { t with ErrorCode := x })

/-- Where the fields of `AlterReplicaLogDirPartitionResult34` end. -/
def AlterReplicaLogDirPartitionResult34.ends (_version : Int16) (t : AlterReplicaLogDirPartitionResult34) : Nat → Nat :=
  Cut.ends 0 [Wire.int32 t.PartitionIndex,
    Wire.int16 t.ErrorCode]

/-- What is left of `t` if only its first `n` bytes are there. -/
def AlterReplicaLogDirPartitionResult34.cut (version : Int16) (n : Nat) (t : AlterReplicaLogDirPartitionResult34) : AlterReplicaLogDirPartitionResult34 :=
  { PartitionIndex := Cut.field n (t.ends version 0) t.PartitionIndex 0,
    ErrorCode := Cut.field n (t.ends version 1) t.ErrorCode 0 }

/-- The same after the first `k` statements of `Decode`. -/
def AlterReplicaLogDirPartitionResult34.cutAt (version : Int16) (t : AlterReplicaLogDirPartitionResult34) (k n : Nat) : AlterReplicaLogDirPartitionResult34 :=
  { PartitionIndex := upto k 0 (Cut.field n (t.ends version 0) t.PartitionIndex 0) 0,
    ErrorCode := upto k 1 (Cut.field n (t.ends version 1) t.ErrorCode 0) 0 }

/-- The first `k` fields of `y`, and zeros. -/
def AlterReplicaLogDirPartitionResult34.first (k : Nat) (y : AlterReplicaLogDirPartitionResult34) : AlterReplicaLogDirPartitionResult34 :=
  { PartitionIndex := upto k 0 y.PartitionIndex 0,
    ErrorCode := upto k 1 y.ErrorCode 0 }

/-- `r` is a beginning of `y`, and zeros. -/
def AlterReplicaLogDirPartitionResult34.Part (r y : AlterReplicaLogDirPartitionResult34) : Prop :=
  (∃ k, k < 2 ∧ r = y.first k)

/-- `AlterReplicaLogDirPartitionResult34` with its receiver kept. -/
def AlterReplicaLogDirPartitionResult34.keeps : KeptMsg AlterReplicaLogDirPartitionResult34.type := { decode := AlterReplicaLogDirPartitionResult34.decodeK, cut := AlterReplicaLogDirPartitionResult34.cut, Part := AlterReplicaLogDirPartitionResult34.Part }

theorem AlterReplicaLogDirPartitionResult34.sameK (version : Int16) : KStep (AlterReplicaLogDirPartitionResult34.decodeK version) (AlterReplicaLogDirPartitionResult34.decode version) :=
  (KStep.field)
    |>.andThen (KStep.field)
theorem AlterReplicaLogDirPartitionResult34.cutsK (version : Int16) (t : AlterReplicaLogDirPartitionResult34) (h : t.Fits version) :
    Cuts (AlterReplicaLogDirPartitionResult34.decodeK version) 0 (AlterReplicaLogDirPartitionResult34.wire version t) (AlterReplicaLogDirPartitionResult34.ends version t 1) (AlterReplicaLogDirPartitionResult34.cutAt version t 0) (AlterReplicaLogDirPartitionResult34.cutAt version t 2) :=
  (.field (reads_int32 t.PartitionIndex) (fun _ => rfl) (fun _ => rfl) : Cuts _ 0 _ (AlterReplicaLogDirPartitionResult34.ends version t 0) (AlterReplicaLogDirPartitionResult34.cutAt version t 0) (AlterReplicaLogDirPartitionResult34.cutAt version t 1))
    |>.andThen (.field (reads_int16 t.ErrorCode) (fun _ => rfl) (fun _ => rfl) : Cuts _ (AlterReplicaLogDirPartitionResult34.ends version t 0) _ (AlterReplicaLogDirPartitionResult34.ends version t 1) (AlterReplicaLogDirPartitionResult34.cutAt version t 1) (AlterReplicaLogDirPartitionResult34.cutAt version t 2))
theorem AlterReplicaLogDirPartitionResult34.partsK (version : Int16) : Parts (AlterReplicaLogDirPartitionResult34.decodeK version) (AlterReplicaLogDirPartitionResult34.first 0) (AlterReplicaLogDirPartitionResult34.first 2) (fun r y => ((r = AlterReplicaLogDirPartitionResult34.first 0 y) ∨ (r = AlterReplicaLogDirPartitionResult34.first 1 y))) :=
  (.field Longer.int32 (fun _ => rfl) (fun _ _ => rfl) (fun _ _ => rfl) (fun _ => rfl) : Parts (KDec.field Dec.int32 0 (fun t x => { t with PartitionIndex := x })) (AlterReplicaLogDirPartitionResult34.first 0) (AlterReplicaLogDirPartitionResult34.first 1) (fun r y => r = AlterReplicaLogDirPartitionResult34.first 0 y))
    |>.andThen (.field Longer.int16 (fun _ => rfl) (fun _ _ => rfl) (fun _ _ => rfl) (fun _ => rfl) : Parts (KDec.field Dec.int16 0 (fun t x => { t with ErrorCode := x })) (AlterReplicaLogDirPartitionResult34.first 1) (AlterReplicaLogDirPartitionResult34.first 2) (fun r y => r = AlterReplicaLogDirPartitionResult34.first 1 y))
theorem AlterReplicaLogDirPartitionResult34.filled (version : Int16) : FilledStep 6 6 (AlterReplicaLogDirPartitionResult34.decode version) :=
  ((FilledStep.field .int32)
    |>.andThen (FilledStep.field .int16)).mono (by decide) (by decide)
theorem AlterReplicaLogDirPartitionResult34.part_of (r y : AlterReplicaLogDirPartitionResult34) (h : ((r = AlterReplicaLogDirPartitionResult34.first 0 y) ∨ (r = AlterReplicaLogDirPartitionResult34.first 1 y))) : AlterReplicaLogDirPartitionResult34.Part r y :=
  match h with
    | (.inl h) => ⟨0, by decide, h⟩
    | (.inr h) => ⟨1, by decide, h⟩
theorem AlterReplicaLogDirPartitionResult34.keeps_holds : AlterReplicaLogDirPartitionResult34.keeps.Holds AlterReplicaLogDirPartitionResult34.layout :=
  KeptMsg.holds AlterReplicaLogDirPartitionResult34.lawful AlterReplicaLogDirPartitionResult34.sameK (stop := fun v t => AlterReplicaLogDirPartitionResult34.ends v t 1) (c := fun v t => AlterReplicaLogDirPartitionResult34.cutAt v t 0) (fun _ _ _ => rfl) AlterReplicaLogDirPartitionResult34.cutsK (c0 := AlterReplicaLogDirPartitionResult34.first 0) rfl AlterReplicaLogDirPartitionResult34.partsK AlterReplicaLogDirPartitionResult34.part_of AlterReplicaLogDirPartitionResult34.filled (by decide) (by decide)

/-- message/messages.gen.go:9254-9274 `AlterReplicaLogDirTopicResult34.Decode`, with the receiver kept -/
def AlterReplicaLogDirTopicResult34.decodeK (version : Int16) : KDec AlterReplicaLogDirTopicResult34 :=
    KDec.field Dec.string [] (fun t x => { t with TopicName := x }) ;|>
    KDec.fieldStructs (AlterReplicaLogDirPartitionResult34.decodeK version {}) {} (fun t x => { t with Partitions := x })

/-- Where the fields of `AlterReplicaLogDirTopicResult34` end. -/
def AlterReplicaLogDirTopicResult34.ends (version : Int16) (t : AlterReplicaLogDirTopicResult34) : Nat → Nat :=
  Cut.ends 0 [Wire.string t.TopicName,
    Wire.array (AlterReplicaLogDirPartitionResult34.wire version) t.Partitions]

/-- What is left of `t` if only its first `n` bytes are there. -/
def AlterReplicaLogDirTopicResult34.cut (version : Int16) (n : Nat) (t : AlterReplicaLogDirTopicResult34) : AlterReplicaLogDirTopicResult34 :=
  { TopicName := Cut.field n (t.ends version 0) t.TopicName [],
    Partitions := Cut.array n (t.ends version 0) (AlterReplicaLogDirPartitionResult34.wire version) (fun x => x.seen version {}) {} t.Partitions }

/-- The same after the first `k` statements of `Decode`. -/
def AlterReplicaLogDirTopicResult34.cutAt (version : Int16) (t : AlterReplicaLogDirTopicResult34) (k n : Nat) : AlterReplicaLogDirTopicResult34 :=
  { TopicName := upto k 0 (Cut.field n (t.ends version 0) t.TopicName []) [],
    Partitions := upto k 1 (Cut.array n (t.ends version 0) (AlterReplicaLogDirPartitionResult34.wire version) (fun x => x.seen version {}) {} t.Partitions) none }

/-- The first `k` fields of `y`, and zeros. -/
def AlterReplicaLogDirTopicResult34.first (k : Nat) (y : AlterReplicaLogDirTopicResult34) : AlterReplicaLogDirTopicResult34 :=
  { TopicName := upto k 0 y.TopicName [],
    Partitions := upto k 1 y.Partitions none }

/-- `r` is a beginning of `y`, and zeros. -/
def AlterReplicaLogDirTopicResult34.Part (r y : AlterReplicaLogDirTopicResult34) : Prop :=
  (∃ k, k < 2 ∧ r = y.first k) ∨
    Cut.begun {} (fun t => t.Partitions) (fun t x => { t with Partitions := x }) (AlterReplicaLogDirTopicResult34.first 1) r y

/-- `AlterReplicaLogDirTopicResult34` with its receiver kept. -/
def AlterReplicaLogDirTopicResult34.keeps : KeptMsg AlterReplicaLogDirTopicResult34.type := { decode := AlterReplicaLogDirTopicResult34.decodeK, cut := AlterReplicaLogDirTopicResult34.cut, Part := AlterReplicaLogDirTopicResult34.Part }

theorem AlterReplicaLogDirTopicResult34.sameK (version : Int16) : KStep (AlterReplicaLogDirTopicResult34.decodeK version) (AlterReplicaLogDirTopicResult34.decode version) :=
  (KStep.field)
    |>.andThen (KStep.structs (fun _ => rfl) (AlterReplicaLogDirPartitionResult34.sameK version {}))
theorem AlterReplicaLogDirTopicResult34.cutsK (version : Int16) (t : AlterReplicaLogDirTopicResult34) (h : t.Fits version) :
    Cuts (AlterReplicaLogDirTopicResult34.decodeK version) 0 (AlterReplicaLogDirTopicResult34.wire version t) (AlterReplicaLogDirTopicResult34.ends version t 1) (AlterReplicaLogDirTopicResult34.cutAt version t 0) (AlterReplicaLogDirTopicResult34.cutAt version t 2) :=
  (.field (reads_string h.TopicName) (fun _ => rfl) (fun _ => rfl) : Cuts _ 0 _ (AlterReplicaLogDirTopicResult34.ends version t 0) (AlterReplicaLogDirTopicResult34.cutAt version t 0) (AlterReplicaLogDirTopicResult34.cutAt version t 1))
    |>.andThen (.structs (AlterReplicaLogDirPartitionResult34.sameK version {}) (fun x hx => AlterReplicaLogDirPartitionResult34.reads version x hx {}) h.Partitions (fun _ => rfl) (fun _ => rfl) : Cuts _ (AlterReplicaLogDirTopicResult34.ends version t 0) _ (AlterReplicaLogDirTopicResult34.ends version t 1) (AlterReplicaLogDirTopicResult34.cutAt version t 1) (AlterReplicaLogDirTopicResult34.cutAt version t 2))
theorem AlterReplicaLogDirTopicResult34.partsK (version : Int16) : Parts (AlterReplicaLogDirTopicResult34.decodeK version) (AlterReplicaLogDirTopicResult34.first 0) (AlterReplicaLogDirTopicResult34.first 2) (fun r y => ((r = AlterReplicaLogDirTopicResult34.first 0 y) ∨ (r = AlterReplicaLogDirTopicResult34.first 1 y ∨ Cut.begun {} (fun t => t.Partitions) (fun t x => { t with Partitions := x }) (AlterReplicaLogDirTopicResult34.first 1) r y))) :=
  (.field Longer.string (fun _ => rfl) (fun _ _ => rfl) (fun _ _ => rfl) (fun _ => rfl) : Parts (KDec.field Dec.string [] (fun t x => { t with TopicName := x })) (AlterReplicaLogDirTopicResult34.first 0) (AlterReplicaLogDirTopicResult34.first 1) (fun r y => r = AlterReplicaLogDirTopicResult34.first 0 y))
    |>.andThen (.structs (get := fun (t : AlterReplicaLogDirTopicResult34) => t.Partitions) ((AlterReplicaLogDirPartitionResult34.partsK version).longer {}) (fun _ => rfl) (fun _ => rfl) (fun _ _ => rfl) (fun _ _ => rfl) (fun _ _ => rfl) (fun _ => rfl) (fun _ => rfl) : Parts (KDec.fieldStructs (AlterReplicaLogDirPartitionResult34.decodeK version {}) {} (fun t x => { t with Partitions := x })) (AlterReplicaLogDirTopicResult34.first 1) (AlterReplicaLogDirTopicResult34.first 2) (fun r y => r = AlterReplicaLogDirTopicResult34.first 1 y ∨ Cut.begun {} (fun t => t.Partitions) (fun t x => { t with Partitions := x }) (AlterReplicaLogDirTopicResult34.first 1) r y))
theorem AlterReplicaLogDirTopicResult34.filled (version : Int16) : FilledStep 6 12884901898 (AlterReplicaLogDirTopicResult34.decode version) :=
  ((FilledStep.field .string)
    |>.andThen (FilledStep.structs (AlterReplicaLogDirPartitionResult34.filled version {}))).mono (by decide) (by decide)
theorem AlterReplicaLogDirTopicResult34.part_of (r y : AlterReplicaLogDirTopicResult34) (h : ((r = AlterReplicaLogDirTopicResult34.first 0 y) ∨ (r = AlterReplicaLogDirTopicResult34.first 1 y ∨ Cut.begun {} (fun t => t.Partitions) (fun t x => { t with Partitions := x }) (AlterReplicaLogDirTopicResult34.first 1) r y))) : AlterReplicaLogDirTopicResult34.Part r y :=
  match h with
    | (.inl h) => .inl ⟨0, by decide, h⟩
    | (.inr (.inl h)) => .inl ⟨1, by decide, h⟩
    | (.inr (.inr h)) => (.inr h)
theorem AlterReplicaLogDirTopicResult34.keeps_holds : AlterReplicaLogDirTopicResult34.keeps.Holds AlterReplicaLogDirTopicResult34.layout :=
  KeptMsg.holds AlterReplicaLogDirTopicResult34.lawful AlterReplicaLogDirTopicResult34.sameK (stop := fun v t => AlterReplicaLogDirTopicResult34.ends v t 1) (c := fun v t => AlterReplicaLogDirTopicResult34.cutAt v t 0) (fun _ _ _ => rfl) AlterReplicaLogDirTopicResult34.cutsK (c0 := AlterReplicaLogDirTopicResult34.first 0) rfl AlterReplicaLogDirTopicResult34.partsK AlterReplicaLogDirTopicResult34.part_of AlterReplicaLogDirTopicResult34.filled (by decide) (by decide)

/-- message/messages.gen.go:9204-9224 `AlterReplicaLogDirsResponse.Decode`, with the receiver kept -/
def AlterReplicaLogDirsResponse.decodeK (version : Int16) : KDec AlterReplicaLogDirsResponse :=
    KDec.field Dec.int32 0 (fun t x => { t with ThrottleTimeMs := x }) ;|>
    KDec.fieldStructs (AlterReplicaLogDirTopicResult34.decodeK version {}) {} (fun t x => { t with Results := x })

/-- Where the fields of `AlterReplicaLogDirsResponse` end. -/
def AlterReplicaLogDirsResponse.ends (version : Int16) (t : AlterReplicaLogDirsResponse) : Nat → Nat :=
  Cut.ends 0 [Wire.int32 t.ThrottleTimeMs,
    Wire.array (AlterReplicaLogDirTopicResult34.wire version) t.Results]

/-- What is left of `t` if only its first `n` bytes are there. -/
def AlterReplicaLogDirsResponse.cut (version : Int16) (n : Nat) (t : AlterReplicaLogDirsResponse) : AlterReplicaLogDirsResponse :=
  { ThrottleTimeMs := Cut.field n (t.ends version 0) t.ThrottleTimeMs 0,
    Results := Cut.array n (t.ends version 0) (AlterReplicaLogDirTopicResult34.wire version) (fun x => x.seen version {}) {} t.Results }

/-- The same after the first `k` statements of `Decode`. -/
def AlterReplicaLogDirsResponse.cutAt (version : Int16) (t : AlterReplicaLogDirsResponse) (k n : Nat) : AlterReplicaLogDirsResponse :=
  { ThrottleTimeMs := upto k 0 (Cut.field n (t.ends version 0) t.ThrottleTimeMs 0) 0,
    Results := upto k 1 (Cut.array n (t.ends version 0) (AlterReplicaLogDirTopicResult34.wire version) (fun x => x.seen version {}) {} t.Results) none }

/-- The first `k` fields of `y`, and zeros. -/
def AlterReplicaLogDirsResponse.first (k : Nat) (y : AlterReplicaLogDirsResponse) : AlterReplicaLogDirsResponse :=
  { ThrottleTimeMs := upto k 0 y.ThrottleTimeMs 0,
    Results := upto k 1 y.Results none }

/-- `r` is a beginning of `y`, and zeros. -/
def AlterReplicaLogDirsResponse.Part (r y : AlterReplicaLogDirsResponse) : Prop :=
  (∃ k, k < 2 ∧ r = y.first k) ∨
    Cut.begun {} (fun t => t.Results) (fun t x => { t with Results := x }) (AlterReplicaLogDirsResponse.first 1) r y

/-- `AlterReplicaLogDirsResponse` with its receiver kept. -/
def AlterReplicaLogDirsResponse.keeps : KeptMsg AlterReplicaLogDirsResponse.type := { decode := AlterReplicaLogDirsResponse.decodeK, cut := AlterReplicaLogDirsResponse.cut, Part := AlterReplicaLogDirsResponse.Part }

theorem AlterReplicaLogDirsResponse.sameK (version : Int16) : KStep (AlterReplicaLogDirsResponse.decodeK version) (AlterReplicaLogDirsResponse.decode version) :=
  (KStep.field)
    |>.andThen (KStep.structs (fun _ => rfl) (AlterReplicaLogDirTopicResult34.sameK version {}))
theorem AlterReplicaLogDirsResponse.cutsK (version : Int16) (t : AlterReplicaLogDirsResponse) (h : t.Fits version) :
    Cuts (AlterReplicaLogDirsResponse.decodeK version) 0 (AlterReplicaLogDirsResponse.wire version t) (AlterReplicaLogDirsResponse.ends version t 1) (AlterReplicaLogDirsResponse.cutAt version t 0) (AlterReplicaLogDirsResponse.cutAt version t 2) :=
  (.field (reads_int32 t.ThrottleTimeMs) (fun _ => rfl) (fun _ => rfl) : Cuts _ 0 _ (AlterReplicaLogDirsResponse.ends version t 0) (AlterReplicaLogDirsResponse.cutAt version t 0) (AlterReplicaLogDirsResponse.cutAt version t 1))
    |>.andThen (.structs (AlterReplicaLogDirTopicResult34.sameK version {}) (fun x hx => AlterReplicaLogDirTopicResult34.reads version x hx {}) h.Results (fun _ => rfl) (fun _ => rfl) : Cuts _ (AlterReplicaLogDirsResponse.ends version t 0) _ (AlterReplicaLogDirsResponse.ends version t 1) (AlterReplicaLogDirsResponse.cutAt version t 1) (AlterReplicaLogDirsResponse.cutAt version t 2))
theorem AlterReplicaLogDirsResponse.partsK (version : Int16) : Parts (AlterReplicaLogDirsResponse.decodeK version) (AlterReplicaLogDirsResponse.first 0) (AlterReplicaLogDirsResponse.first 2) (fun r y => ((r = AlterReplicaLogDirsResponse.first 0 y) ∨ (r = AlterReplicaLogDirsResponse.first 1 y ∨ Cut.begun {} (fun t => t.Results) (fun t x => { t with Results := x }) (AlterReplicaLogDirsResponse.first 1) r y))) :=
  (.field Longer.int32 (fun _ => rfl) (fun _ _ => rfl) (fun _ _ => rfl) (fun _ => rfl) : Parts (KDec.field Dec.int32 0 (fun t x => { t with ThrottleTimeMs := x })) (AlterReplicaLogDirsResponse.first 0) (AlterReplicaLogDirsResponse.first 1) (fun r y => r = AlterReplicaLogDirsResponse.first 0 y))
    |>.andThen (.structs (get := fun (t : AlterReplicaLogDirsResponse) => t.Results) ((AlterReplicaLogDirTopicResult34.partsK version).longer {}) (fun _ => rfl) (fun _ => rfl) (fun _ _ => rfl) (fun _ _ => rfl) (fun _ _ => rfl) (fun _ => rfl) (fun _ => rfl) : Parts (KDec.fieldStructs (AlterReplicaLogDirTopicResult34.decodeK version {}) {} (fun t x => { t with Results := x })) (AlterReplicaLogDirsResponse.first 1) (AlterReplicaLogDirsResponse.first 2) (fun r y => r = AlterReplicaLogDirsResponse.first 1 y ∨ Cut.begun {} (fun t => t.Results) (fun t x => { t with Results := x }) (AlterReplicaLogDirsResponse.first 1) r y))
theorem AlterReplicaLogDirsResponse.filled (version : Int16) : FilledStep 8 25769803790 (AlterReplicaLogDirsResponse.decode version) :=
  ((FilledStep.field .int32)
    |>.andThen (FilledStep.structs (AlterReplicaLogDirTopicResult34.filled version {}))).mono (by decide) (by decide)
theorem AlterReplicaLogDirsResponse.part_of (r y : AlterReplicaLogDirsResponse) (h : ((r = AlterReplicaLogDirsResponse.first 0 y) ∨ (r = AlterReplicaLogDirsResponse.first 1 y ∨ Cut.begun {} (fun t => t.Results) (fun t x => { t with Results := x }) (AlterReplicaLogDirsResponse.first 1) r y))) : AlterReplicaLogDirsResponse.Part r y :=
  match h with
    | (.inl h) => .inl ⟨0, by decide, h⟩
    | (.inr (.inl h)) => .inl ⟨1, by decide, h⟩
    | (.inr (.inr h)) => (.inr h)
theorem AlterReplicaLogDirsResponse.keeps_holds : AlterReplicaLogDirsResponse.keeps.Holds AlterReplicaLogDirsResponse.layout :=
  KeptMsg.holds AlterReplicaLogDirsResponse.lawful AlterReplicaLogDirsResponse.sameK (stop := fun v t => AlterReplicaLogDirsResponse.ends v t 1) (c := fun v t => AlterReplicaLogDirsResponse.cutAt v t 0) (fun _ _ _ => rfl) AlterReplicaLogDirsResponse.cutsK (c0 := AlterReplicaLogDirsResponse.first 0) rfl AlterReplicaLogDirsResponse.partsK AlterReplicaLogDirsResponse.part_of AlterReplicaLogDirsResponse.filled (by decide) (by decide)

/-- The structures of the AlterReplicaLogDirs messages. -/
def keptAlterReplicaLogDirs : List (Σ (M : MsgType) (_ : Layout M), KeptMsg M) :=
  [⟨AlterReplicaLogDirsRequest.type, AlterReplicaLogDirsRequest.layout, AlterReplicaLogDirsRequest.keeps⟩,
   ⟨AlterReplicaLogDir34.type, AlterReplicaLogDir34.layout, AlterReplicaLogDir34.keeps⟩,
   ⟨AlterReplicaLogDirTopic34.type, AlterReplicaLogDirTopic34.layout, AlterReplicaLogDirTopic34.keeps⟩,
   ⟨AlterReplicaLogDirsResponse.type, AlterReplicaLogDirsResponse.layout, AlterReplicaLogDirsResponse.keeps⟩,
   ⟨AlterReplicaLogDirTopicResult34.type, AlterReplicaLogDirTopicResult34.layout, AlterReplicaLogDirTopicResult34.keeps⟩,
   ⟨AlterReplicaLogDirPartitionResult34.type, AlterReplicaLogDirPartitionResult34.layout, AlterReplicaLogDirPartitionResult34.keeps⟩]
theorem keptAlterReplicaLogDirs_holds : ∀ p ∈ keptAlterReplicaLogDirs, p.2.2.Holds p.2.1 := by
  unfold keptAlterReplicaLogDirs
  simp only [List.forall_mem_cons]
  exact ⟨AlterReplicaLogDirsRequest.keeps_holds, AlterReplicaLogDir34.keeps_holds, AlterReplicaLogDirTopic34.keeps_holds, AlterReplicaLogDirsResponse.keeps_holds, AlterReplicaLogDirTopicResult34.keeps_holds, AlterReplicaLogDirPartitionResult34.keeps_holds, fun _ h => absurd h (by simp)⟩

end Kafka.Msg
