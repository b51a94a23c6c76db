import Verif.Message.KeptLemmas
import Verif.Gen.Proof.CreateAcls
/-!
Generated by tools/gen_messages.py: what is in the CreateAcls messages after an error.
-/
set_option linter.unusedVariables false
namespace Kafka.Msg

/-- message/messages.gen.go:7996-8029 `CreatableAcl30.Decode`, with the receiver kept -/
def CreatableAcl30.decodeK (version : Int16) : KDec CreatableAcl30 :=
    KDec.field Dec.int8 0 (fun t x => { t with ResourceType := x }) ;|>
    KDec.field Dec.string [] (fun t x => { t with ResourceName := x }) ;|>
    KDec.onlyIf (version ≥ 1) (KDec.field Dec.int8 0 (fun t x => { t with ResourcePatternType := x })) ;|>
    KDec.field Dec.string [] (fun t x => { t with Principal := x }) ;|>
    KDec.field Dec.string [] (fun t x => { t with Host := x }) ;|>
    KDec.field Dec.int8 0 (fun t x => { t with Operation := x }) ;|>
    KDec.field Dec.int8 0 (fun t x => { t with PermissionType := x })

/-- Where the fields of `CreatableAcl30` end. -/
def CreatableAcl30.ends (version : Int16) (t : CreatableAcl30) : Nat → Nat :=
  Cut.ends 0 [Wire.int8 t.ResourceType,
    Wire.string t.ResourceName,
    Wire.when (version ≥ 1) (Wire.int8 t.ResourcePatternType),
    Wire.string t.Principal,
    Wire.string t.Host,
    Wire.int8 t.Operation,
    Wire.int8 t.PermissionType]

/-- What is left of `t` if only its first `n` bytes are there. -/
def CreatableAcl30.cut (version : Int16) (n : Nat) (t : CreatableAcl30) : CreatableAcl30 :=
  { ResourceType := Cut.field n (t.ends version 0) t.ResourceType 0,
    ResourceName := Cut.field n (t.ends version 1) t.ResourceName [],
    ResourcePatternType := Cut.gate (version ≥ 1) (Cut.field n (t.ends version 2) t.ResourcePatternType 0) 0,
    Principal := Cut.field n (t.ends version 3) t.Principal [],
    Host := Cut.field n (t.ends version 4) t.Host [],
    Operation := Cut.field n (t.ends version 5) t.Operation 0,
    PermissionType := Cut.field n (t.ends version 6) t.PermissionType 0 }

/-- The same after the first `k` statements of `Decode`. -/
def CreatableAcl30.cutAt (version : Int16) (t : CreatableAcl30) (k n : Nat) : CreatableAcl30 :=
  { ResourceType := upto k 0 (Cut.field n (t.ends version 0) t.ResourceType 0) 0,
    ResourceName := upto k 1 (Cut.field n (t.ends version 1) t.ResourceName []) [],
    ResourcePatternType := upto k 2 (Cut.gate (version ≥ 1) (Cut.field n (t.ends version 2) t.ResourcePatternType 0) 0) 0,
    Principal := upto k 3 (Cut.field n (t.ends version 3) t.Principal []) [],
    Host := upto k 4 (Cut.field n (t.ends version 4) t.Host []) [],
    Operation := upto k 5 (Cut.field n (t.ends version 5) t.Operation 0) 0,
    PermissionType := upto k 6 (Cut.field n (t.ends version 6) t.PermissionType 0) 0 }

/-- The first `k` fields of `y`, and zeros. -/
def CreatableAcl30.first (k : Nat) (y : CreatableAcl30) : CreatableAcl30 :=
  { ResourceType := upto k 0 y.ResourceType 0,
    ResourceName := upto k 1 y.ResourceName [],
    ResourcePatternType := upto k 2 y.ResourcePatternType 0,
    Principal := upto k 3 y.Principal [],
    Host := upto k 4 y.Host [],
    Operation := upto k 5 y.Operation 0,
    PermissionType := upto k 6 y.PermissionType 0 }

/-- `r` is a beginning of `y`, and zeros. -/
def CreatableAcl30.Part (r y : CreatableAcl30) : Prop :=
  (∃ k, k < 7 ∧ r = y.first k)

/-- `CreatableAcl30` with its receiver kept. -/
def CreatableAcl30.keeps : KeptMsg CreatableAcl30.type := { decode := CreatableAcl30.decodeK, cut := CreatableAcl30.cut, Part := CreatableAcl30.Part }

theorem CreatableAcl30.sameK (version : Int16) : KStep (CreatableAcl30.decodeK version) (CreatableAcl30.decode version) :=
  (KStep.field)
    |>.andThen (KStep.field)
    |>.andThen (KStep.onlyIf (KStep.field))
    |>.andThen (KStep.field)
    |>.andThen (KStep.field)
    |>.andThen (KStep.field)
    |>.andThen (KStep.field)
theorem CreatableAcl30.cutsK (version : Int16) (t : CreatableAcl30) (h : t.Fits version) :
    Cuts (CreatableAcl30.decodeK version) 0 (CreatableAcl30.wire version t) (CreatableAcl30.ends version t 6) (CreatableAcl30.cutAt version t 0) (CreatableAcl30.cutAt version t 7) :=
  (.field (reads_int8 t.ResourceType) (fun _ => rfl) (fun _ => rfl) : Cuts _ 0 _ (CreatableAcl30.ends version t 0) (CreatableAcl30.cutAt version t 0) (CreatableAcl30.cutAt version t 1))
    |>.andThen (.field (reads_string h.ResourceName) (fun _ => rfl) (fun _ => rfl) : Cuts _ (CreatableAcl30.ends version t 0) _ (CreatableAcl30.ends version t 1) (CreatableAcl30.cutAt version t 1) (CreatableAcl30.cutAt version t 2))
    |>.andThen (.optField (fun _ => reads_int8 t.ResourcePatternType) (fun _ => rfl) (fun _ => rfl) : Cuts _ (CreatableAcl30.ends version t 1) _ (CreatableAcl30.ends version t 2) (CreatableAcl30.cutAt version t 2) (CreatableAcl30.cutAt version t 3))
    |>.andThen (.field (reads_string h.Principal) (fun _ => rfl) (fun _ => rfl) : Cuts _ (CreatableAcl30.ends version t 2) _ (CreatableAcl30.ends version t 3) (CreatableAcl30.cutAt version t 3) (CreatableAcl30.cutAt version t 4))
    |>.andThen (.field (reads_string h.Host) (fun _ => rfl) (fun _ => rfl) : Cuts _ (CreatableAcl30.ends version t 3) _ (CreatableAcl30.ends version t 4) (CreatableAcl30.cutAt version t 4) (CreatableAcl30.cutAt version t 5))
    |>.andThen (.field (reads_int8 t.Operation) (fun _ => rfl) (fun _ => rfl) : Cuts _ (CreatableAcl30.ends version t 4) _ (CreatableAcl30.ends version t 5) (CreatableAcl30.cutAt version t 5) (CreatableAcl30.cutAt version t 6))
    |>.andThen (.field (reads_int8 t.PermissionType) (fun _ => rfl) (fun _ => rfl) : Cuts _ (CreatableAcl30.ends version t 5) _ (CreatableAcl30.ends version t 6) (CreatableAcl30.cutAt version t 6) (CreatableAcl30.cutAt version t 7))
theorem CreatableAcl30.partsK (version : Int16) : Parts (CreatableAcl30.decodeK version) (CreatableAcl30.first 0) (CreatableAcl30.first 7) (fun r y => (((((((r = CreatableAcl30.first 0 y) ∨ (r = CreatableAcl30.first 1 y)) ∨ (r = CreatableAcl30.first 2 y)) ∨ (r = CreatableAcl30.first 3 y)) ∨ (r = CreatableAcl30.first 4 y)) ∨ (r = CreatableAcl30.first 5 y)) ∨ (r = CreatableAcl30.first 6 y))) :=
  (.field Longer.int8 (fun _ => rfl) (fun _ _ => rfl) (fun _ _ => rfl) (fun _ => rfl) : Parts (KDec.field Dec.int8 0 (fun t x => { t with ResourceType := x })) (CreatableAcl30.first 0) (CreatableAcl30.first 1) (fun r y => r = CreatableAcl30.first 0 y))
    |>.andThen (.field Longer.string (fun _ => rfl) (fun _ _ => rfl) (fun _ _ => rfl) (fun _ => rfl) : Parts (KDec.field Dec.string [] (fun t x => { t with ResourceName := x })) (CreatableAcl30.first 1) (CreatableAcl30.first 2) (fun r y => r = CreatableAcl30.first 1 y))
    |>.andThen (.onlyIf (.field Longer.int8 (fun _ => rfl) (fun _ _ => rfl) (fun _ _ => rfl) (fun _ => rfl)) (fun _ => rfl) : Parts (KDec.onlyIf (version ≥ 1) (KDec.field Dec.int8 0 (fun t x => { t with ResourcePatternType := x }))) (CreatableAcl30.first 2) (CreatableAcl30.first 3) (fun r y => r = CreatableAcl30.first 2 y))
    |>.andThen (.field Longer.string (fun _ => rfl) (fun _ _ => rfl) (fun _ _ => rfl) (fun _ => rfl) : Parts (KDec.field Dec.string [] (fun t x => { t with Principal := x })) (CreatableAcl30.first 3) (CreatableAcl30.first 4) (fun r y => r = CreatableAcl30.first 3 y))
    |>.andThen (.field Longer.string (fun _ => rfl) (fun _ _ => rfl) (fun _ _ => rfl) (fun _ => rfl) : Parts (KDec.field Dec.string [] (fun t x => { t with Host := x })) (CreatableAcl30.first 4) (CreatableAcl30.first 5) (fun r y => r = CreatableAcl30.first 4 y))
    |>.andThen (.field Longer.int8 (fun _ => rfl) (fun _ _ => rfl) (fun _ _ => rfl) (fun _ => rfl) : Parts (KDec.field Dec.int8 0 (fun t x => { t with Operation := x })) (CreatableAcl30.first 5) (CreatableAcl30.first 6) (fun r y => r = CreatableAcl30.first 5 y))
    |>.andThen (.field Longer.int8 (fun _ => rfl) (fun _ _ => rfl) (fun _ _ => rfl) (fun _ => rfl) : Parts (KDec.field Dec.int8 0 (fun t x => { t with PermissionType := x })) (CreatableAcl30.first 6) (CreatableAcl30.first 7) (fun r y => r = CreatableAcl30.first 6 y))
theorem CreatableAcl30.filled (version : Int16) : FilledStep 10 32777 (CreatableAcl30.decode version) :=
  ((FilledStep.field .int8)
    |>.andThen (FilledStep.field .string)
    |>.andThen (FilledStep.onlyIf (FilledStep.field .int8))
    |>.andThen (FilledStep.field .string)
    |>.andThen (FilledStep.field .string)
    |>.andThen (FilledStep.field .int8)
    |>.andThen (FilledStep.field .int8)).mono (by decide) (by decide)
theorem CreatableAcl30.part_of (r y : CreatableAcl30) (h : (((((((r = CreatableAcl30.first 0 y) ∨ (r = CreatableAcl30.first 1 y)) ∨ (r = CreatableAcl30.first 2 y)) ∨ (r = CreatableAcl30.first 3 y)) ∨ (r = CreatableAcl30.first 4 y)) ∨ (r = CreatableAcl30.first 5 y)) ∨ (r = CreatableAcl30.first 6 y))) : CreatableAcl30.Part r y :=
  match h with
    | (.inl (.inl (.inl (.inl (.inl (.inl h)))))) => ⟨0, by decide, h⟩
    | (.inl (.inl (.inl (.inl (.inl (.inr h)))))) => ⟨1, by decide, h⟩
    | (.inl (.inl (.inl (.inl (.inr h))))) => ⟨2, by decide, h⟩
    | (.inl (.inl (.inl (.inr h)))) => ⟨3, by decide, h⟩
    | (.inl (.inl (.inr h))) => ⟨4, by decide, h⟩
    | (.inl (.inr h)) => ⟨5, by decide, h⟩
    | (.inr h) => ⟨6, by decide, h⟩
theorem CreatableAcl30.keeps_holds : CreatableAcl30.keeps.Holds CreatableAcl30.layout :=
  KeptMsg.holds CreatableAcl30.lawful CreatableAcl30.sameK (stop := fun v t => CreatableAcl30.ends v t 6) (c := fun v t => CreatableAcl30.cutAt v t 0) (fun _ _ _ => rfl) CreatableAcl30.cutsK (c0 := CreatableAcl30.first 0) rfl CreatableAcl30.partsK CreatableAcl30.part_of CreatableAcl30.filled (by decide) (by decide)

/-- message/messages.gen.go:7939-7955 `CreateAclsRequest.Decode`, with the receiver kept -/
def CreateAclsRequest.decodeK (version : Int16) : KDec CreateAclsRequest :=
    KDec.fieldStructs (CreatableAcl30.decodeK version {}) {} (fun t x => { t with Creations := x })

/-- Where the fields of `CreateAclsRequest` end. -/
def CreateAclsRequest.ends (version : Int16) (t : CreateAclsRequest) : Nat → Nat :=
  Cut.ends 0 [Wire.array (CreatableAcl30.wire version) t.Creations]

/-- What is left of `t` if only its first `n` bytes are there. -/
def CreateAclsRequest.cut (version : Int16) (n : Nat) (t : CreateAclsRequest) : CreateAclsRequest :=
  { Creations := Cut.array n 0 (CreatableAcl30.wire version) (fun x => x.seen version {}) {} t.Creations }

/-- The same after the first `k` statements of `Decode`. -/
def CreateAclsRequest.cutAt (version : Int16) (t : CreateAclsRequest) (k n : Nat) : CreateAclsRequest :=
  { Creations := upto k 0 (Cut.array n 0 (CreatableAcl30.wire version) (fun x => x.seen version {}) {} t.Creations) none }

/-- The first `k` fields of `y`, and zeros. -/
def CreateAclsRequest.first (k : Nat) (y : CreateAclsRequest) : CreateAclsRequest :=
  { Creations := upto k 0 y.Creations none }

/-- `r` is a beginning of `y`, and zeros. -/
def CreateAclsRequest.Part (r y : CreateAclsRequest) : Prop :=
  (∃ k, k < 1 ∧ r = y.first k) ∨
    Cut.begun {} (fun t => t.Creations) (fun t x => { t with Creations := x }) (CreateAclsRequest.first 0) r y

/-- `CreateAclsRequest` with its receiver kept. -/
def CreateAclsRequest.keeps : KeptMsg CreateAclsRequest.type := { decode := CreateAclsRequest.decodeK, cut := CreateAclsRequest.cut, Part := CreateAclsRequest.Part }

theorem CreateAclsRequest.sameK (version : Int16) : KStep (CreateAclsRequest.decodeK version) (CreateAclsRequest.decode version) :=
  KStep.structs (fun _ => rfl) (CreatableAcl30.sameK version {})
theorem CreateAclsRequest.cutsK (version : Int16) (t : CreateAclsRequest) (h : t.Fits version) :
    Cuts (CreateAclsRequest.decodeK version) 0 (CreateAclsRequest.wire version t) (CreateAclsRequest.ends version t 0) (CreateAclsRequest.cutAt version t 0) (CreateAclsRequest.cutAt version t 1) :=
  (.structs (CreatableAcl30.sameK version {}) (fun x hx => CreatableAcl30.reads version x hx {}) h.Creations (fun _ => rfl) (fun _ => rfl) : Cuts _ 0 _ (CreateAclsRequest.ends version t 0) (CreateAclsRequest.cutAt version t 0) (CreateAclsRequest.cutAt version t 1))
theorem CreateAclsRequest.partsK (version : Int16) : Parts (CreateAclsRequest.decodeK version) (CreateAclsRequest.first 0) (CreateAclsRequest.first 1) (fun r y => (r = CreateAclsRequest.first 0 y ∨ Cut.begun {} (fun t => t.Creations) (fun t x => { t with Creations := x }) (CreateAclsRequest.first 0) r y)) :=
  (.structs (get := fun (t : CreateAclsRequest) => t.Creations) ((CreatableAcl30.partsK version).longer {}) (fun _ => rfl) (fun _ => rfl) (fun _ _ => rfl) (fun _ _ => rfl) (fun _ _ => rfl) (fun _ => rfl) (fun _ => rfl) : Parts (KDec.fieldStructs (CreatableAcl30.decodeK version {}) {} (fun t x => { t with Creations := x })) (CreateAclsRequest.first 0) (CreateAclsRequest.first 1) (fun r y => r = CreateAclsRequest.first 0 y ∨ Cut.begun {} (fun t => t.Creations) (fun t x => { t with Creations := x }) (CreateAclsRequest.first 0) r y))
theorem CreateAclsRequest.filled (version : Int16) : FilledStep 4 21474869261 (CreateAclsRequest.decode version) :=
  (FilledStep.structs (CreatableAcl30.filled version {})).mono (by decide) (by decide)
theorem CreateAclsRequest.part_of (r y : CreateAclsRequest) (h : (r = CreateAclsRequest.first 0 y ∨ Cut.begun {} (fun t => t.Creations) (fun t x => { t with Creations := x }) (CreateAclsRequest.first 0) r y)) : CreateAclsRequest.Part r y :=
  match h with
    | (.inl h) => .inl ⟨0, by decide, h⟩
    | (.inr h) => (.inr h)
theorem CreateAclsRequest.keeps_holds : CreateAclsRequest.keeps.Holds CreateAclsRequest.layout :=
  KeptMsg.holds CreateAclsRequest.lawful CreateAclsRequest.sameK (stop := fun v t => CreateAclsRequest.ends v t 0) (c := fun v t => CreateAclsRequest.cutAt v t 0) (fun _ _ _ => rfl) CreateAclsRequest.cutsK (c0 := CreateAclsRequest.first 0) rfl CreateAclsRequest.partsK CreateAclsRequest.part_of CreateAclsRequest.filled (by decide) (by decide)

/-- message/messages.gen.go:8102-8113 `CreatableAclResult30.Decode`, with the receiver kept -/
def CreatableAclResult30.decodeK (_version : Int16) : KDec CreatableAclResult30 :=
    KDec.field Dec.int16 0 (fun t x => { t with ErrorCode := x }) ;|>
    KDec.field Dec.string [] (fun t x => { t with ErrorMessage := x })

/-- Where the fields of `CreatableAclResult30` end. -/
def CreatableAclResult30.ends (_version : Int16) (t : CreatableAclResult30) : Nat → Nat :=
  Cut.ends 0 [Wire.int16 t.ErrorCode,
    Wire.string t.ErrorMessage]

/-- What is left of `t` if only its first `n` bytes are there. -/
def CreatableAclResult30.cut (version : Int16) (n : Nat) (t : CreatableAclResult30) : CreatableAclResult30 :=
  { ErrorCode := Cut.field n (t.ends version 0) t.ErrorCode 0,
    ErrorMessage := Cut.field n (t.ends version 1) t.ErrorMessage [] }

/-- The same after the first `k` statements of `Decode`. -/
def CreatableAclResult30.cutAt (version : Int16) (t : CreatableAclResult30) (k n : Nat) : CreatableAclResult30 :=
  { ErrorCode := upto k 0 (Cut.field n (t.ends version 0) t.ErrorCode 0) 0,
    ErrorMessage := upto k 1 (Cut.field n (t.ends version 1) t.ErrorMessage []) [] }

/-- The first `k` fields of `y`, and zeros. -/
def CreatableAclResult30.first (k : Nat) (y : CreatableAclResult30) : CreatableAclResult30 :=
  { ErrorCode := upto k 0 y.ErrorCode 0,
    ErrorMessage := upto k 1 y.ErrorMessage [] }

/-- `r` is a beginning of `y`, and zeros. -/
def CreatableAclResult30.Part (r y : CreatableAclResult30) : Prop :=
  (∃ k, k < 2 ∧ r = y.first k)

/-- `CreatableAclResult30` with its receiver kept. -/
def CreatableAclResult30.keeps : KeptMsg CreatableAclResult30.type := { decode := CreatableAclResult30.decodeK, cut := CreatableAclResult30.cut, Part := CreatableAclResult30.Part }

theorem CreatableAclResult30.sameK (version : Int16) : KStep (CreatableAclResult30.decodeK version) (CreatableAclResult30.decode version) :=
  (KStep.field)
    |>.andThen (KStep.field)
theorem CreatableAclResult30.cutsK (version : Int16) (t : CreatableAclResult30) (h : t.Fits version) :
    Cuts (CreatableAclResult30.decodeK version) 0 (CreatableAclResult30.wire version t) (CreatableAclResult30.ends version t 1) (CreatableAclResult30.cutAt version t 0) (CreatableAclResult30.cutAt version t 2) :=
  (.field (reads_int16 t.ErrorCode) (fun _ => rfl) (fun _ => rfl) : Cuts _ 0 _ (CreatableAclResult30.ends version t 0) (CreatableAclResult30.cutAt version t 0) (CreatableAclResult30.cutAt version t 1))
    |>.andThen (.field (reads_string h.ErrorMessage) (fun _ => rfl) (fun _ => rfl) : Cuts _ (CreatableAclResult30.ends version t 0) _ (CreatableAclResult30.ends version t 1) (CreatableAclResult30.cutAt version t 1) (CreatableAclResult30.cutAt version t 2))
theorem CreatableAclResult30.partsK (version : Int16) : Parts (CreatableAclResult30.decodeK version) (CreatableAclResult30.first 0) (CreatableAclResult30.first 2) (fun r y => ((r = CreatableAclResult30.first 0 y) ∨ (r = CreatableAclResult30.first 1 y))) :=
  (.field Longer.int16 (fun _ => rfl) (fun _ _ => rfl) (fun _ _ => rfl) (fun _ => rfl) : Parts (KDec.field Dec.int16 0 (fun t x => { t with ErrorCode := x })) (CreatableAclResult30.first 0) (CreatableAclResult30.first 1) (fun r y => r = CreatableAclResult30.first 0 y))
    |>.andThen (.field Longer.string (fun _ => rfl) (fun _ _ => rfl) (fun _ _ => rfl) (fun _ => rfl) : Parts (KDec.field Dec.string [] (fun t x => { t with ErrorMessage := x })) (CreatableAclResult30.first 1) (CreatableAclResult30.first 2) (fun r y => r = CreatableAclResult30.first 1 y))
theorem CreatableAclResult30.filled (version : Int16) : FilledStep 4 32770 (CreatableAclResult30.decode version) :=
  ((FilledStep.field .int16)
    |>.andThen (FilledStep.field .string)).mono (by decide) (by decide)
theorem CreatableAclResult30.part_of (r y : CreatableAclResult30) (h : ((r = CreatableAclResult30.first 0 y) ∨ (r = CreatableAclResult30.first 1 y))) : CreatableAclResult30.Part r y :=
  match h with
    | (.inl h) => ⟨0, by decide, h⟩
    | (.inr h) => ⟨1, by decide, h⟩
theorem CreatableAclResult30.keeps_holds : CreatableAclResult30.keeps.Holds CreatableAclResult30.layout :=
  KeptMsg.holds CreatableAclResult30.lawful CreatableAclResult30.sameK (stop := fun v t => CreatableAclResult30.ends v t 1) (c := fun v t => CreatableAclResult30.cutAt v t 0) (fun _ _ _ => rfl) CreatableAclResult30.cutsK (c0 := CreatableAclResult30.first 0) rfl CreatableAclResult30.partsK CreatableAclResult30.part_of CreatableAclResult30.filled (by decide) (by decide)

/-- message/messages.gen.go:8060-8080 `CreateAclsResponse.Decode`, with the receiver kept -/
def CreateAclsResponse.decodeK (version : Int16) : KDec CreateAclsResponse :=
    KDec.field Dec.int32 0 (fun t x => { t with ThrottleTimeMs := x }) ;|>
    KDec.fieldStructs (CreatableAclResult30.decodeK version {}) {} (fun t x => { t with Results := x })

/-- Where the fields of `CreateAclsResponse` end. -/
def CreateAclsResponse.ends (version : Int16) (t : CreateAclsResponse) : Nat → Nat :=
  Cut.ends 0 [Wire.int32 t.ThrottleTimeMs,
    Wire.array (CreatableAclResult30.wire version) t.Results]

/-- What is left of `t` if only its first `n` bytes are there. -/
def CreateAclsResponse.cut (version : Int16) (n : Nat) (t : CreateAclsResponse) : CreateAclsResponse :=
  { ThrottleTimeMs := Cut.field n (t.ends version 0) t.ThrottleTimeMs 0,
    Results := Cut.array n (t.ends version 0) (CreatableAclResult30.wire version) (fun x => x.seen version {}) {} t.Results }

/-- The same after the first `k` statements of `Decode`. -/
def CreateAclsResponse.cutAt (version : Int16) (t : CreateAclsResponse) (k n : Nat) : CreateAclsResponse :=
  { ThrottleTimeMs := upto k 0 (Cut.field n (t.ends version 0) t.ThrottleTimeMs 0) 0,
    Results := upto k 1 (Cut.array n (t.ends version 0) (CreatableAclResult30.wire version) (fun x => x.seen version {}) {} t.Results) none }

/-- The first `k` fields of `y`, and zeros. -/
def CreateAclsResponse.first (k : Nat) (y : CreateAclsResponse) : CreateAclsResponse :=
  { ThrottleTimeMs := upto k 0 y.ThrottleTimeMs 0,
    Results := upto k 1 y.Results none }

/-- `r` is a beginning of `y`, and zeros. -/
def CreateAclsResponse.Part (r y : CreateAclsResponse) : Prop :=
  (∃ k, k < 2 ∧ r = y.first k) ∨
    Cut.begun {} (fun t => t.Results) (fun t x => { t with Results := x }) (CreateAclsResponse.first 1) r y

/-- `CreateAclsResponse` with its receiver kept. -/
def CreateAclsResponse.keeps : KeptMsg CreateAclsResponse.type := { decode := CreateAclsResponse.decodeK, cut := CreateAclsResponse.cut, Part := CreateAclsResponse.Part }

theorem CreateAclsResponse.sameK (version : Int16) : KStep (CreateAclsResponse.decodeK version) (CreateAclsResponse.decode version) :=
  (KStep.field)
    |>.andThen (KStep.structs (fun _ => rfl) (CreatableAclResult30.sameK version {}))
theorem CreateAclsResponse.cutsK (version : Int16) (t : CreateAclsResponse) (h : t.Fits version) :
    Cuts (CreateAclsResponse.decodeK version) 0 (CreateAclsResponse.wire version t) (CreateAclsResponse.ends version t 1) (CreateAclsResponse.cutAt version t 0) (CreateAclsResponse.cutAt version t 2) :=
  (.field (reads_int32 t.ThrottleTimeMs) (fun _ => rfl) (fun _ => rfl) : Cuts _ 0 _ (CreateAclsResponse.ends version t 0) (CreateAclsResponse.cutAt version t 0) (CreateAclsResponse.cutAt version t 1))
    |>.andThen (.structs (CreatableAclResult30.sameK version {}) (fun x hx => CreatableAclResult30.reads version x hx {}) h.Results (fun _ => rfl) (fun _ => rfl) : Cuts _ (CreateAclsResponse.ends version t 0) _ (CreateAclsResponse.ends version t 1) (CreateAclsResponse.cutAt version t 1) (CreateAclsResponse.cutAt version t 2))
theorem CreateAclsResponse.partsK (version : Int16) : Parts (CreateAclsResponse.decodeK version) (CreateAclsResponse.first 0) (CreateAclsResponse.first 2) (fun r y => ((r = CreateAclsResponse.first 0 y) ∨ (r = CreateAclsResponse.first 1 y ∨ Cut.begun {} (fun t => t.Results) (fun t x => { t with Results := x }) (CreateAclsResponse.first 1) r y))) :=
  (.field Longer.int32 (fun _ => rfl) (fun _ _ => rfl) (fun _ _ => rfl) (fun _ => rfl) : Parts (KDec.field Dec.int32 0 (fun t x => { t with ThrottleTimeMs := x })) (CreateAclsResponse.first 0) (CreateAclsResponse.first 1) (fun r y => r = CreateAclsResponse.first 0 y))
    |>.andThen (.structs (get := fun (t : CreateAclsResponse) => t.Results) ((CreatableAclResult30.partsK version).longer {}) (fun _ => rfl) (fun _ => rfl) (fun _ _ => rfl) (fun _ _ => rfl) (fun _ _ => rfl) (fun _ => rfl) (fun _ => rfl) : Parts (KDec.fieldStructs (CreatableAclResult30.decodeK version {}) {} (fun t x => { t with Results := x })) (CreateAclsResponse.first 1) (CreateAclsResponse.first 2) (fun r y => r = CreateAclsResponse.first 1 y ∨ Cut.begun {} (fun t => t.Results) (fun t x => { t with Results := x }) (CreateAclsResponse.first 1) r y))
theorem CreateAclsResponse.filled (version : Int16) : FilledStep 8 8589967366 (CreateAclsResponse.decode version) :=
  ((FilledStep.field .int32)
    |>.andThen (FilledStep.structs (CreatableAclResult30.filled version {}))).mono (by decide) (by decide)
theorem CreateAclsResponse.part_of (r y : CreateAclsResponse) (h : ((r = CreateAclsResponse.first 0 y) ∨ (r = CreateAclsResponse.first 1 y ∨ Cut.begun {} (fun t => t.Results) (fun t x => { t with Results := x }) (CreateAclsResponse.first 1) r y))) : CreateAclsResponse.Part r y :=
  match h with
    | (.inl h) => .inl ⟨0, by decide, h⟩
    | (.inr (.inl h)) => .inl ⟨1, by decide, h⟩
    | (.inr (.inr h)) => (.inr h)
theorem CreateAclsResponse.keeps_holds : CreateAclsResponse.keeps.Holds CreateAclsResponse.layout :=
  KeptMsg.holds CreateAclsResponse.lawful CreateAclsResponse.sameK (stop := fun v t => CreateAclsResponse.ends v t 1) (c := fun v t => CreateAclsResponse.cutAt v t 0) (fun _ _ _ => rfl) CreateAclsResponse.cutsK (c0 := CreateAclsResponse.first 0) rfl CreateAclsResponse.partsK CreateAclsResponse.part_of CreateAclsResponse.filled (by decide) (by decide)

/-- The structures of the CreateAcls messages. -/
def keptCreateAcls : List (Σ (M : MsgType) (_ : Layout M), KeptMsg M) :=
  [⟨CreateAclsRequest.type, CreateAclsRequest.layout, CreateAclsRequest.keeps⟩,
   ⟨CreatableAcl30.type, CreatableAcl30.layout, CreatableAcl30.keeps⟩,
   ⟨CreateAclsResponse.type, CreateAclsResponse.layout, CreateAclsResponse.keeps⟩,
   ⟨CreatableAclResult30.type, CreatableAclResult30.layout, CreatableAclResult30.keeps⟩]
theorem keptCreateAcls_holds : ∀ p ∈ keptCreateAcls, p.2.2.Holds p.2.1 := by
  unfold keptCreateAcls
  simp only [List.forall_mem_cons]
  exact ⟨CreateAclsRequest.keeps_holds, CreatableAcl30.keeps_holds, CreateAclsResponse.keeps_holds, CreatableAclResult30.keeps_holds, fun _ h => absurd h (by simp)⟩

end Kafka.Msg
