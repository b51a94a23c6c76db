import Verif.Message.KeptLemmas
import Verif.Gen.Proof.DeleteAcls
/-!
Generated by tools/gen_messages.py: what is in the DeleteAcls messages after an error.
-/
set_option linter.unusedVariables false
namespace Kafka.Msg

/-- message/messages.gen.go:8198-8231 `DeleteAclsFilter31.Decode`, with the receiver kept -/
def DeleteAclsFilter31.decodeK (version : Int16) : KDec DeleteAclsFilter31 :=
    KDec.field Dec.int8 0 (fun t x => { t with ResourceTypeFilter := x }) ;|>
    KDec.field Dec.string [] (fun t x => { t with ResourceNameFilter := x }) ;|>
    KDec.onlyIf (version ≥ 1) (KDec.field Dec.int8 0 (fun t x => { t with PatternTypeFilter := x })) ;|>
    KDec.field Dec.string [] (fun t x => { t with PrincipalFilter := x }) ;|>
    KDec.field Dec.string [] (fun t x => { t with HostFilter := x }) ;|>
    KDec.field Dec.int8 0 (fun t x => { t with Operation := x }) ;|>
    KDec.field Dec.int8 0 (fun t x => { t with PermissionType := x })

/-- Where the fields of `DeleteAclsFilter31` end. -/
def DeleteAclsFilter31.ends (version : Int16) (t : DeleteAclsFilter31) : Nat → Nat :=
  Cut.ends 0 [Wire.int8 t.ResourceTypeFilter,
    Wire.string t.ResourceNameFilter,
    Wire.when (version ≥ 1) (Wire.int8 t.PatternTypeFilter),
    Wire.string t.PrincipalFilter,
    Wire.string t.HostFilter,
    Wire.int8 t.Operation,
    Wire.int8 t.PermissionType]

/-- What is left of `t` if only its first `n` bytes are there. -/
def DeleteAclsFilter31.cut (version : Int16) (n : Nat) (t : DeleteAclsFilter31) : DeleteAclsFilter31 :=
  { ResourceTypeFilter := Cut.field n (t.ends version 0) t.ResourceTypeFilter 0,
    ResourceNameFilter := Cut.field n (t.ends version 1) t.ResourceNameFilter [],
    PatternTypeFilter := Cut.gate (version ≥ 1) (Cut.field n (t.ends version 2) t.PatternTypeFilter 0) 0,
    PrincipalFilter := Cut.field n (t.ends version 3) t.PrincipalFilter [],
    HostFilter := Cut.field n (t.ends version 4) t.HostFilter [],
    Operation := Cut.field n (t.ends version 5) t.Operation 0,
    PermissionType := Cut.field n (t.ends version 6) t.PermissionType 0 }

/-- The same after the first `k` statements of `Decode`. -/
def DeleteAclsFilter31.cutAt (version : Int16) (t : DeleteAclsFilter31) (k n : Nat) : DeleteAclsFilter31 :=
  { ResourceTypeFilter := upto k 0 (Cut.field n (t.ends version 0) t.ResourceTypeFilter 0) 0,
    ResourceNameFilter := upto k 1 (Cut.field n (t.ends version 1) t.ResourceNameFilter []) [],
    PatternTypeFilter := upto k 2 (Cut.gate (version ≥ 1) (Cut.field n (t.ends version 2) t.PatternTypeFilter 0) 0) 0,
    PrincipalFilter := upto k 3 (Cut.field n (t.ends version 3) t.PrincipalFilter []) [],
    HostFilter := upto k 4 (Cut.field n (t.ends version 4) t.HostFilter []) [],
    Operation := upto k 5 (Cut.field n (t.ends version 5) t.Operation 0) 0,
    PermissionType := upto k 6 (Cut.field n (t.ends version 6) t.PermissionType 0) 0 }

/-- The first `k` fields of `y`, and zeros. -/
def DeleteAclsFilter31.first (k : Nat) (y : DeleteAclsFilter31) : DeleteAclsFilter31 :=
  { ResourceTypeFilter := upto k 0 y.ResourceTypeFilter 0,
    ResourceNameFilter := upto k 1 y.ResourceNameFilter [],
    PatternTypeFilter := upto k 2 y.PatternTypeFilter 0,
    PrincipalFilter := upto k 3 y.PrincipalFilter [],
    HostFilter := upto k 4 y.HostFilter [],
    Operation := upto k 5 y.Operation 0,
    PermissionType := upto k 6 y.PermissionType 0 }

/-- `r` is a beginning of `y`, and zeros. -/
def DeleteAclsFilter31.Part (r y : DeleteAclsFilter31) : Prop :=
  (∃ k, k < 7 ∧ r = y.first k)

/-- `DeleteAclsFilter31` with its receiver kept. -/
def DeleteAclsFilter31.keeps : KeptMsg DeleteAclsFilter31.type := { decode := DeleteAclsFilter31.decodeK, cut := DeleteAclsFilter31.cut, Part := DeleteAclsFilter31.Part }

theorem DeleteAclsFilter31.sameK (version : Int16) : KStep (DeleteAclsFilter31.decodeK version) (DeleteAclsFilter31.decode version) :=
  (KStep.field)
    |>.andThen (KStep.field)
    |>.andThen (KStep.onlyIf (KStep.field))
    |>.andThen (KStep.field)
    |>.andThen (KStep.field)
    |>.andThen (KStep.field)
    |>.andThen (KStep.field)
theorem DeleteAclsFilter31.cutsK (version : Int16) (t : DeleteAclsFilter31) (h : t.Fits version) :
    Cuts (DeleteAclsFilter31.decodeK version) 0 (DeleteAclsFilter31.wire version t) (DeleteAclsFilter31.ends version t 6) (DeleteAclsFilter31.cutAt version t 0) (DeleteAclsFilter31.cutAt version t 7) :=
  (.field (reads_int8 t.ResourceTypeFilter) (fun _ => rfl) (fun _ => rfl) : Cuts _ 0 _ (DeleteAclsFilter31.ends version t 0) (DeleteAclsFilter31.cutAt version t 0) (DeleteAclsFilter31.cutAt version t 1))
    |>.andThen (.field (reads_string h.ResourceNameFilter) (fun _ => rfl) (fun _ => rfl) : Cuts _ (DeleteAclsFilter31.ends version t 0) _ (DeleteAclsFilter31.ends version t 1) (DeleteAclsFilter31.cutAt version t 1) (DeleteAclsFilter31.cutAt version t 2))
    |>.andThen (.optField (fun _ => reads_int8 t.PatternTypeFilter) (fun _ => rfl) (fun _ => rfl) : Cuts _ (DeleteAclsFilter31.ends version t 1) _ (DeleteAclsFilter31.ends version t 2) (DeleteAclsFilter31.cutAt version t 2) (DeleteAclsFilter31.cutAt version t 3))
    |>.andThen (.field (reads_string h.PrincipalFilter) (fun _ => rfl) (fun _ => rfl) : Cuts _ (DeleteAclsFilter31.ends version t 2) _ (DeleteAclsFilter31.ends version t 3) (DeleteAclsFilter31.cutAt version t 3) (DeleteAclsFilter31.cutAt version t 4))
    |>.andThen (.field (reads_string h.HostFilter) (fun _ => rfl) (fun _ => rfl) : Cuts _ (DeleteAclsFilter31.ends version t 3) _ (DeleteAclsFilter31.ends version t 4) (DeleteAclsFilter31.cutAt version t 4) (DeleteAclsFilter31.cutAt version t 5))
    |>.andThen (.field (reads_int8 t.Operation) (fun _ => rfl) (fun _ => rfl) : Cuts _ (DeleteAclsFilter31.ends version t 4) _ (DeleteAclsFilter31.ends version t 5) (DeleteAclsFilter31.cutAt version t 5) (DeleteAclsFilter31.cutAt version t 6))
    |>.andThen (.field (reads_int8 t.PermissionType) (fun _ => rfl) (fun _ => rfl) : Cuts _ (DeleteAclsFilter31.ends version t 5) _ (DeleteAclsFilter31.ends version t 6) (DeleteAclsFilter31.cutAt version t 6) (DeleteAclsFilter31.cutAt version t 7))
theorem DeleteAclsFilter31.partsK (version : Int16) : Parts (DeleteAclsFilter31.decodeK version) (DeleteAclsFilter31.first 0) (DeleteAclsFilter31.first 7) (fun r y => (((((((r = DeleteAclsFilter31.first 0 y) ∨ (r = DeleteAclsFilter31.first 1 y)) ∨ (r = DeleteAclsFilter31.first 2 y)) ∨ (r = DeleteAclsFilter31.first 3 y)) ∨ (r = DeleteAclsFilter31.first 4 y)) ∨ (r = DeleteAclsFilter31.first 5 y)) ∨ (r = DeleteAclsFilter31.first 6 y))) :=
  (.field Longer.int8 (fun _ => rfl) (fun _ _ => rfl) (fun _ _ => rfl) (fun _ => rfl) : Parts (KDec.field Dec.int8 0 (fun t x => { t with ResourceTypeFilter := x })) (DeleteAclsFilter31.first 0) (DeleteAclsFilter31.first 1) (fun r y => r = DeleteAclsFilter31.first 0 y))
    |>.andThen (.field Longer.string (fun _ => rfl) (fun _ _ => rfl) (fun _ _ => rfl) (fun _ => rfl) : Parts (KDec.field Dec.string [] (fun t x => { t with ResourceNameFilter := x })) (DeleteAclsFilter31.first 1) (DeleteAclsFilter31.first 2) (fun r y => r = DeleteAclsFilter31.first 1 y))
    |>.andThen (.onlyIf (.field Longer.int8 (fun _ => rfl) (fun _ _ => rfl) (fun _ _ => rfl) (fun _ => rfl)) (fun _ => rfl) : Parts (KDec.onlyIf (version ≥ 1) (KDec.field Dec.int8 0 (fun t x => { t with PatternTypeFilter := x }))) (DeleteAclsFilter31.first 2) (DeleteAclsFilter31.first 3) (fun r y => r = DeleteAclsFilter31.first 2 y))
    |>.andThen (.field Longer.string (fun _ => rfl) (fun _ _ => rfl) (fun _ _ => rfl) (fun _ => rfl) : Parts (KDec.field Dec.string [] (fun t x => { t with PrincipalFilter := x })) (DeleteAclsFilter31.first 3) (DeleteAclsFilter31.first 4) (fun r y => r = DeleteAclsFilter31.first 3 y))
    |>.andThen (.field Longer.string (fun _ => rfl) (fun _ _ => rfl) (fun _ _ => rfl) (fun _ => rfl) : Parts (KDec.field Dec.string [] (fun t x => { t with HostFilter := x })) (DeleteAclsFilter31.first 4) (DeleteAclsFilter31.first 5) (fun r y => r = DeleteAclsFilter31.first 4 y))
    |>.andThen (.field Longer.int8 (fun _ => rfl) (fun _ _ => rfl) (fun _ _ => rfl) (fun _ => rfl) : Parts (KDec.field Dec.int8 0 (fun t x => { t with Operation := x })) (DeleteAclsFilter31.first 5) (DeleteAclsFilter31.first 6) (fun r y => r = DeleteAclsFilter31.first 5 y))
    |>.andThen (.field Longer.int8 (fun _ => rfl) (fun _ _ => rfl) (fun _ _ => rfl) (fun _ => rfl) : Parts (KDec.field Dec.int8 0 (fun t x => { t with PermissionType := x })) (DeleteAclsFilter31.first 6) (DeleteAclsFilter31.first 7) (fun r y => r = DeleteAclsFilter31.first 6 y))
theorem DeleteAclsFilter31.filled (version : Int16) : FilledStep 10 32777 (DeleteAclsFilter31.decode version) :=
  ((FilledStep.field .int8)
    |>.andThen (FilledStep.field .string)
    |>.andThen (FilledStep.onlyIf (FilledStep.field .int8))
    |>.andThen (FilledStep.field .string)
    |>.andThen (FilledStep.field .string)
    |>.andThen (FilledStep.field .int8)
    |>.andThen (FilledStep.field .int8)).mono (by decide) (by decide)
theorem DeleteAclsFilter31.part_of (r y : DeleteAclsFilter31) (h : (((((((r = DeleteAclsFilter31.first 0 y) ∨ (r = DeleteAclsFilter31.first 1 y)) ∨ (r = DeleteAclsFilter31.first 2 y)) ∨ (r = DeleteAclsFilter31.first 3 y)) ∨ (r = DeleteAclsFilter31.first 4 y)) ∨ (r = DeleteAclsFilter31.first 5 y)) ∨ (r = DeleteAclsFilter31.first 6 y))) : DeleteAclsFilter31.Part r y :=
  match h with
    | (.inl (.inl (.inl (.inl (.inl (.inl h)))))) => ⟨0, by decide, h⟩
    | (.inl (.inl (.inl (.inl (.inl (.inr h)))))) => ⟨1, by decide, h⟩
    | (.inl (.inl (.inl (.inl (.inr h))))) => ⟨2, by decide, h⟩
    | (.inl (.inl (.inl (.inr h)))) => ⟨3, by decide, h⟩
    | (.inl (.inl (.inr h))) => ⟨4, by decide, h⟩
    | (.inl (.inr h)) => ⟨5, by decide, h⟩
    | (.inr h) => ⟨6, by decide, h⟩
theorem DeleteAclsFilter31.keeps_holds : DeleteAclsFilter31.keeps.Holds DeleteAclsFilter31.layout :=
  KeptMsg.holds DeleteAclsFilter31.lawful DeleteAclsFilter31.sameK (stop := fun v t => DeleteAclsFilter31.ends v t 6) (c := fun v t => DeleteAclsFilter31.cutAt v t 0) (fun _ _ _ => rfl) DeleteAclsFilter31.cutsK (c0 := DeleteAclsFilter31.first 0) rfl DeleteAclsFilter31.partsK DeleteAclsFilter31.part_of DeleteAclsFilter31.filled (by decide) (by decide)

/-- message/messages.gen.go:8141-8157 `DeleteAclsRequest.Decode`, with the receiver kept -/
def DeleteAclsRequest.decodeK (version : Int16) : KDec DeleteAclsRequest :=
    KDec.fieldStructs (DeleteAclsFilter31.decodeK version {}) {} (fun t x => { t with Filters := x })

/-- Where the fields of `DeleteAclsRequest` end. -/
def DeleteAclsRequest.ends (version : Int16) (t : DeleteAclsRequest) : Nat → Nat :=
  Cut.ends 0 [Wire.array (DeleteAclsFilter31.wire version) t.Filters]

/-- What is left of `t` if only its first `n` bytes are there. -/
def DeleteAclsRequest.cut (version : Int16) (n : Nat) (t : DeleteAclsRequest) : DeleteAclsRequest :=
  { Filters := Cut.array n 0 (DeleteAclsFilter31.wire version) (fun x => x.seen version {}) {} t.Filters }

/-- The same after the first `k` statements of `Decode`. -/
def DeleteAclsRequest.cutAt (version : Int16) (t : DeleteAclsRequest) (k n : Nat) : DeleteAclsRequest :=
  { Filters := upto k 0 (Cut.array n 0 (DeleteAclsFilter31.wire version) (fun x => x.seen version {}) {} t.Filters) none }

/-- The first `k` fields of `y`, and zeros. -/
def DeleteAclsRequest.first (k : Nat) (y : DeleteAclsRequest) : DeleteAclsRequest :=
  { Filters := upto k 0 y.Filters none }

/-- `r` is a beginning of `y`, and zeros. -/
def DeleteAclsRequest.Part (r y : DeleteAclsRequest) : Prop :=
  (∃ k, k < 1 ∧ r = y.first k) ∨
    Cut.begun {} (fun t => t.Filters) (fun t x => { t with Filters := x }) (DeleteAclsRequest.first 0) r y

/-- `DeleteAclsRequest` with its receiver kept. -/
def DeleteAclsRequest.keeps : KeptMsg DeleteAclsRequest.type := { decode := DeleteAclsRequest.decodeK, cut := DeleteAclsRequest.cut, Part := DeleteAclsRequest.Part }

theorem DeleteAclsRequest.sameK (version : Int16) : KStep (DeleteAclsRequest.decodeK version) (DeleteAclsRequest.decode version) :=
  KStep.structs (fun _ => rfl) (DeleteAclsFilter31.sameK version {})
theorem DeleteAclsRequest.cutsK (version : Int16) (t : DeleteAclsRequest) (h : t.Fits version) :
    Cuts (DeleteAclsRequest.decodeK version) 0 (DeleteAclsRequest.wire version t) (DeleteAclsRequest.ends version t 0) (DeleteAclsRequest.cutAt version t 0) (DeleteAclsRequest.cutAt version t 1) :=
  (.structs (DeleteAclsFilter31.sameK version {}) (fun x hx => DeleteAclsFilter31.reads version x hx {}) h.Filters (fun _ => rfl) (fun _ => rfl) : Cuts _ 0 _ (DeleteAclsRequest.ends version t 0) (DeleteAclsRequest.cutAt version t 0) (DeleteAclsRequest.cutAt version t 1))
theorem DeleteAclsRequest.partsK (version : Int16) : Parts (DeleteAclsRequest.decodeK version) (DeleteAclsRequest.first 0) (DeleteAclsRequest.first 1) (fun r y => (r = DeleteAclsRequest.first 0 y ∨ Cut.begun {} (fun t => t.Filters) (fun t x => { t with Filters := x }) (DeleteAclsRequest.first 0) r y)) :=
  (.structs (get := fun (t : DeleteAclsRequest) => t.Filters) ((DeleteAclsFilter31.partsK version).longer {}) (fun _ => rfl) (fun _ => rfl) (fun _ _ => rfl) (fun _ _ => rfl) (fun _ _ => rfl) (fun _ => rfl) (fun _ => rfl) : Parts (KDec.fieldStructs (DeleteAclsFilter31.decodeK version {}) {} (fun t x => { t with Filters := x })) (DeleteAclsRequest.first 0) (DeleteAclsRequest.first 1) (fun r y => r = DeleteAclsRequest.first 0 y ∨ Cut.begun {} (fun t => t.Filters) (fun t x => { t with Filters := x }) (DeleteAclsRequest.first 0) r y))
theorem DeleteAclsRequest.filled (version : Int16) : FilledStep 4 21474869261 (DeleteAclsRequest.decode version) :=
  (FilledStep.structs (DeleteAclsFilter31.filled version {})).mono (by decide) (by decide)
theorem DeleteAclsRequest.part_of (r y : DeleteAclsRequest) (h : (r = DeleteAclsRequest.first 0 y ∨ Cut.begun {} (fun t => t.Filters) (fun t x => { t with Filters := x }) (DeleteAclsRequest.first 0) r y)) : DeleteAclsRequest.Part r y :=
  match h with
    | (.inl h) => .inl ⟨0, by decide, h⟩
    | (.inr h) => (.inr h)
theorem DeleteAclsRequest.keeps_holds : DeleteAclsRequest.keeps.Holds DeleteAclsRequest.layout :=
  KeptMsg.holds DeleteAclsRequest.lawful DeleteAclsRequest.sameK (stop := fun v t => DeleteAclsRequest.ends v t 0) (c := fun v t => DeleteAclsRequest.cutAt v t 0) (fun _ _ _ => rfl) DeleteAclsRequest.cutsK (c0 := DeleteAclsRequest.first 0) rfl DeleteAclsRequest.partsK DeleteAclsRequest.part_of DeleteAclsRequest.filled (by decide) (by decide)

/-- message/messages.gen.go:8386-8427 `DeleteAclsMatchingAcl31.Decode`, with the receiver kept -/
def DeleteAclsMatchingAcl31.decodeK (version : Int16) : KDec DeleteAclsMatchingAcl31 :=
    KDec.field Dec.int16 0 (fun t x => { t with ErrorCode := x }) ;|>
    KDec.field Dec.string [] (fun t x => { t with ErrorMessage := x }) ;|>
    KDec.field Dec.int8 0 (fun t x => { t with ResourceType := x }) ;|>
    KDec.field Dec.string [] (fun t x => { t with ResourceName := x }) ;|>
    KDec.onlyIf (version ≥ 1) (KDec.field Dec.int8 0 (fun t x => { t with PatternType := x })) ;|>
    KDec.field Dec.string [] (fun t x => { t with Principal := x }) ;|>
    KDec.field Dec.string [] (fun t x => { t with Host := x }) ;|>
    KDec.field Dec.int8 0 (fun t x => { t with Operation := x }) ;|>
    KDec.field Dec.int8 0 (fun t x => { t with PermissionType := x })

/-- Where the fields of `DeleteAclsMatchingAcl31` end. -/
def DeleteAclsMatchingAcl31.ends (version : Int16) (t : DeleteAclsMatchingAcl31) : Nat → Nat :=
  Cut.ends 0 [Wire.int16 t.ErrorCode,
    Wire.string t.ErrorMessage,
    Wire.int8 t.ResourceType,
    Wire.string t.ResourceName,
    Wire.when (version ≥ 1) (Wire.int8 t.PatternType),
    Wire.string t.Principal,
    Wire.string t.Host,
    Wire.int8 t.Operation,
    Wire.int8 t.PermissionType]

/-- What is left of `t` if only its first `n` bytes are there. -/
def DeleteAclsMatchingAcl31.cut (version : Int16) (n : Nat) (t : DeleteAclsMatchingAcl31) : DeleteAclsMatchingAcl31 :=
  { ErrorCode := Cut.field n (t.ends version 0) t.ErrorCode 0,
    ErrorMessage := Cut.field n (t.ends version 1) t.ErrorMessage [],
    ResourceType := Cut.field n (t.ends version 2) t.ResourceType 0,
    ResourceName := Cut.field n (t.ends version 3) t.ResourceName [],
    PatternType := Cut.gate (version ≥ 1) (Cut.field n (t.ends version 4) t.PatternType 0) 0,
    Principal := Cut.field n (t.ends version 5) t.Principal [],
    Host := Cut.field n (t.ends version 6) t.Host [],
    Operation := Cut.field n (t.ends version 7) t.Operation 0,
    PermissionType := Cut.field n (t.ends version 8) t.PermissionType 0 }

/-- The same after the first `k` statements of `Decode`. -/
def DeleteAclsMatchingAcl31.cutAt (version : Int16) (t : DeleteAclsMatchingAcl31) (k n : Nat) : DeleteAclsMatchingAcl31 :=
  { ErrorCode := upto k 0 (Cut.field n (t.ends version 0) t.ErrorCode 0) 0,
    ErrorMessage := upto k 1 (Cut.field n (t.ends version 1) t.ErrorMessage []) [],
    ResourceType := upto k 2 (Cut.field n (t.ends version 2) t.ResourceType 0) 0,
    ResourceName := upto k 3 (Cut.field n (t.ends version 3) t.ResourceName []) [],
    PatternType := upto k 4 (Cut.gate (version ≥ 1) (Cut.field n (t.ends version 4) t.PatternType 0) 0) 0,
    Principal := upto k 5 (Cut.field n (t.ends version 5) t.Principal []) [],
    Host := upto k 6 (Cut.field n (t.ends version 6) t.Host []) [],
    Operation := upto k 7 (Cut.field n (t.ends version 7) t.Operation 0) 0,
    PermissionType := upto k 8 (Cut.field n (t.ends version 8) t.PermissionType 0) 0 }

/-- The first `k` fields of `y`, and zeros. -/
def DeleteAclsMatchingAcl31.first (k : Nat) (y : DeleteAclsMatchingAcl31) : DeleteAclsMatchingAcl31 :=
  { ErrorCode := upto k 0 y.ErrorCode 0,
    ErrorMessage := upto k 1 y.ErrorMessage [],
    ResourceType := upto k 2 y.ResourceType 0,
    ResourceName := upto k 3 y.ResourceName [],
    PatternType := upto k 4 y.PatternType 0,
    Principal := upto k 5 y.Principal [],
    Host := upto k 6 y.Host [],
    Operation := upto k 7 y.Operation 0,
    PermissionType := upto k 8 y.PermissionType 0 }

/-- `r` is a beginning of `y`, and zeros. -/
def DeleteAclsMatchingAcl31.Part (r y : DeleteAclsMatchingAcl31) : Prop :=
  (∃ k, k < 9 ∧ r = y.first k)

/-- `DeleteAclsMatchingAcl31` with its receiver kept. -/
def DeleteAclsMatchingAcl31.keeps : KeptMsg DeleteAclsMatchingAcl31.type := { decode := DeleteAclsMatchingAcl31.decodeK, cut := DeleteAclsMatchingAcl31.cut, Part := DeleteAclsMatchingAcl31.Part }

theorem DeleteAclsMatchingAcl31.sameK (version : Int16) : KStep (DeleteAclsMatchingAcl31.decodeK version) (DeleteAclsMatchingAcl31.decode version) :=
  (KStep.field)
    |>.andThen (KStep.field)
    |>.andThen (KStep.field)
    |>.andThen (KStep.field)
    |>.andThen (KStep.onlyIf (KStep.field))
    |>.andThen (KStep.field)
    |>.andThen (KStep.field)
    |>.andThen (KStep.field)
    |>.andThen (KStep.field)
theorem DeleteAclsMatchingAcl31.cutsK (version : Int16) (t : DeleteAclsMatchingAcl31) (h : t.Fits version) :
    Cuts (DeleteAclsMatchingAcl31.decodeK version) 0 (DeleteAclsMatchingAcl31.wire version t) (DeleteAclsMatchingAcl31.ends version t 8) (DeleteAclsMatchingAcl31.cutAt version t 0) (DeleteAclsMatchingAcl31.cutAt version t 9) :=
  (.field (reads_int16 t.ErrorCode) (fun _ => rfl) (fun _ => rfl) : Cuts _ 0 _ (DeleteAclsMatchingAcl31.ends version t 0) (DeleteAclsMatchingAcl31.cutAt version t 0) (DeleteAclsMatchingAcl31.cutAt version t 1))
    |>.andThen (.field (reads_string h.ErrorMessage) (fun _ => rfl) (fun _ => rfl) : Cuts _ (DeleteAclsMatchingAcl31.ends version t 0) _ (DeleteAclsMatchingAcl31.ends version t 1) (DeleteAclsMatchingAcl31.cutAt version t 1) (DeleteAclsMatchingAcl31.cutAt version t 2))
    |>.andThen (.field (reads_int8 t.ResourceType) (fun _ => rfl) (fun _ => rfl) : Cuts _ (DeleteAclsMatchingAcl31.ends version t 1) _ (DeleteAclsMatchingAcl31.ends version t 2) (DeleteAclsMatchingAcl31.cutAt version t 2) (DeleteAclsMatchingAcl31.cutAt version t 3))
    |>.andThen (.field (reads_string h.ResourceName) (fun _ => rfl) (fun _ => rfl) : Cuts _ (DeleteAclsMatchingAcl31.ends version t 2) _ (DeleteAclsMatchingAcl31.ends version t 3) (DeleteAclsMatchingAcl31.cutAt version t 3) (DeleteAclsMatchingAcl31.cutAt version t 4))
    |>.andThen (.optField (fun _ => reads_int8 t.PatternType) (fun _ => rfl) (fun _ => rfl) : Cuts _ (DeleteAclsMatchingAcl31.ends version t 3) _ (DeleteAclsMatchingAcl31.ends version t 4) (DeleteAclsMatchingAcl31.cutAt version t 4) (DeleteAclsMatchingAcl31.cutAt version t 5))
    |>.andThen (.field (reads_string h.Principal) (fun _ => rfl) (fun _ => rfl) : Cuts _ (DeleteAclsMatchingAcl31.ends version t 4) _ (DeleteAclsMatchingAcl31.ends version t 5) (DeleteAclsMatchingAcl31.cutAt version t 5) (DeleteAclsMatchingAcl31.cutAt version t 6))
    |>.andThen (.field (reads_string h.Host) (fun _ => rfl) (fun _ => rfl) : Cuts _ (DeleteAclsMatchingAcl31.ends version t 5) _ (DeleteAclsMatchingAcl31.ends version t 6) (DeleteAclsMatchingAcl31.cutAt version t 6) (DeleteAclsMatchingAcl31.cutAt version t 7))
    |>.andThen (.field (reads_int8 t.Operation) (fun _ => rfl) (fun _ => rfl) : Cuts _ (DeleteAclsMatchingAcl31.ends version t 6) _ (DeleteAclsMatchingAcl31.ends version t 7) (DeleteAclsMatchingAcl31.cutAt version t 7) (DeleteAclsMatchingAcl31.cutAt version t 8))
    |>.andThen (.field (reads_int8 t.PermissionType) (fun _ => rfl) (fun _ => rfl) : Cuts _ (DeleteAclsMatchingAcl31.ends version t 7) _ (DeleteAclsMatchingAcl31.ends version t 8) (DeleteAclsMatchingAcl31.cutAt version t 8) (DeleteAclsMatchingAcl31.cutAt version t 9))
theorem DeleteAclsMatchingAcl31.partsK (version : Int16) : Parts (DeleteAclsMatchingAcl31.decodeK version) (DeleteAclsMatchingAcl31.first 0) (DeleteAclsMatchingAcl31.first 9) (fun r y => (((((((((r = DeleteAclsMatchingAcl31.first 0 y) ∨ (r = DeleteAclsMatchingAcl31.first 1 y)) ∨ (r = DeleteAclsMatchingAcl31.first 2 y)) ∨ (r = DeleteAclsMatchingAcl31.first 3 y)) ∨ (r = DeleteAclsMatchingAcl31.first 4 y)) ∨ (r = DeleteAclsMatchingAcl31.first 5 y)) ∨ (r = DeleteAclsMatchingAcl31.first 6 y)) ∨ (r = DeleteAclsMatchingAcl31.first 7 y)) ∨ (r = DeleteAclsMatchingAcl31.first 8 y))) :=
  (.field Longer.int16 (fun _ => rfl) (fun _ _ => rfl) (fun _ _ => rfl) (fun _ => rfl) : Parts (KDec.field Dec.int16 0 (fun t x => { t with ErrorCode := x })) (DeleteAclsMatchingAcl31.first 0) (DeleteAclsMatchingAcl31.first 1) (fun r y => r = DeleteAclsMatchingAcl31.first 0 y))
    |>.andThen (.field Longer.string (fun _ => rfl) (fun _ _ => rfl) (fun _ _ => rfl) (fun _ => rfl) : Parts (KDec.field Dec.string [] (fun t x => { t with ErrorMessage := x })) (DeleteAclsMatchingAcl31.first 1) (DeleteAclsMatchingAcl31.first 2) (fun r y => r = DeleteAclsMatchingAcl31.first 1 y))
    |>.andThen (.field Longer.int8 (fun _ => rfl) (fun _ _ => rfl) (fun _ _ => rfl) (fun _ => rfl) : Parts (KDec.field Dec.int8 0 (fun t x => { t with ResourceType := x })) (DeleteAclsMatchingAcl31.first 2) (DeleteAclsMatchingAcl31.first 3) (fun r y => r = DeleteAclsMatchingAcl31.first 2 y))
    |>.andThen (.field Longer.string (fun _ => rfl) (fun _ _ => rfl) (fun _ _ => rfl) (fun _ => rfl) : Parts (KDec.field Dec.string [] (fun t x => { t with ResourceName := x })) (DeleteAclsMatchingAcl31.first 3) (DeleteAclsMatchingAcl31.first 4) (fun r y => r = DeleteAclsMatchingAcl31.first 3 y))
    |>.andThen (.onlyIf (.field Longer.int8 (fun _ => rfl) (fun _ _ => rfl) (fun _ _ => rfl) (fun _ => rfl)) (fun _ => rfl) : Parts (KDec.onlyIf (version ≥ 1) (KDec.field Dec.int8 0 (fun t x => { t with PatternType := x }))) (DeleteAclsMatchingAcl31.first 4) (DeleteAclsMatchingAcl31.first 5) (fun r y => r = DeleteAclsMatchingAcl31.first 4 y))
    |>.andThen (.field Longer.string (fun _ => rfl) (fun _ _ => rfl) (fun _ _ => rfl) (fun _ => rfl) : Parts (KDec.field Dec.string [] (fun t x => { t with Principal := x })) (DeleteAclsMatchingAcl31.first 5) (DeleteAclsMatchingAcl31.first 6) (fun r y => r = DeleteAclsMatchingAcl31.first 5 y))
    |>.andThen (.field Longer.string (fun _ => rfl) (fun _ _ => rfl) (fun _ _ => rfl) (fun _ => rfl) : Parts (KDec.field Dec.string [] (fun t x => { t with Host := x })) (DeleteAclsMatchingAcl31.first 6) (DeleteAclsMatchingAcl31.first 7) (fun r y => r = DeleteAclsMatchingAcl31.first 6 y))
    |>.andThen (.field Longer.int8 (fun _ => rfl) (fun _ _ => rfl) (fun _ _ => rfl) (fun _ => rfl) : Parts (KDec.field Dec.int8 0 (fun t x => { t with Operation := x })) (DeleteAclsMatchingAcl31.first 7) (DeleteAclsMatchingAcl31.first 8) (fun r y => r = DeleteAclsMatchingAcl31.first 7 y))
    |>.andThen (.field Longer.int8 (fun _ => rfl) (fun _ _ => rfl) (fun _ _ => rfl) (fun _ => rfl) : Parts (KDec.field Dec.int8 0 (fun t x => { t with PermissionType := x })) (DeleteAclsMatchingAcl31.first 8) (DeleteAclsMatchingAcl31.first 9) (fun r y => r = DeleteAclsMatchingAcl31.first 8 y))
theorem DeleteAclsMatchingAcl31.filled (version : Int16) : FilledStep 14 32780 (DeleteAclsMatchingAcl31.decode version) :=
  ((FilledStep.field .int16)
    |>.andThen (FilledStep.field .string)
    |>.andThen (FilledStep.field .int8)
    |>.andThen (FilledStep.field .string)
    |>.andThen (FilledStep.onlyIf (FilledStep.field .int8))
    |>.andThen (FilledStep.field .string)
    |>.andThen (FilledStep.field .string)
    |>.andThen (FilledStep.field .int8)
    |>.andThen (FilledStep.field .int8)).mono (by decide) (by decide)
theorem DeleteAclsMatchingAcl31.part_of (r y : DeleteAclsMatchingAcl31) (h : (((((((((r = DeleteAclsMatchingAcl31.first 0 y) ∨ (r = DeleteAclsMatchingAcl31.first 1 y)) ∨ (r = DeleteAclsMatchingAcl31.first 2 y)) ∨ (r = DeleteAclsMatchingAcl31.first 3 y)) ∨ (r = DeleteAclsMatchingAcl31.first 4 y)) ∨ (r = DeleteAclsMatchingAcl31.first 5 y)) ∨ (r = DeleteAclsMatchingAcl31.first 6 y)) ∨ (r = DeleteAclsMatchingAcl31.first 7 y)) ∨ (r = DeleteAclsMatchingAcl31.first 8 y))) : DeleteAclsMatchingAcl31.Part r y :=
  match h with
    | (.inl (.inl (.inl (.inl (.inl (.inl (.inl (.inl h)))))))) => ⟨0, by decide, h⟩
    | (.inl (.inl (.inl (.inl (.inl (.inl (.inl (.inr h)))))))) => ⟨1, by decide, h⟩
    | (.inl (.inl (.inl (.inl (.inl (.inl (.inr h))))))) => ⟨2, by decide, h⟩
    | (.inl (.inl (.inl (.inl (.inl (.inr h)))))) => ⟨3, by decide, h⟩
    | (.inl (.inl (.inl (.inl (.inr h))))) => ⟨4, by decide, h⟩
    | (.inl (.inl (.inl (.inr h)))) => ⟨5, by decide, h⟩
    | (.inl (.inl (.inr h))) => ⟨6, by decide, h⟩
    | (.inl (.inr h)) => ⟨7, by decide, h⟩
    | (.inr h) => ⟨8, by decide, h⟩
theorem DeleteAclsMatchingAcl31.keeps_holds : DeleteAclsMatchingAcl31.keeps.Holds DeleteAclsMatchingAcl31.layout :=
  KeptMsg.holds DeleteAclsMatchingAcl31.lawful DeleteAclsMatchingAcl31.sameK (stop := fun v t => DeleteAclsMatchingAcl31.ends v t 8) (c := fun v t => DeleteAclsMatchingAcl31.cutAt v t 0) (fun _ _ _ => rfl) DeleteAclsMatchingAcl31.cutsK (c0 := DeleteAclsMatchingAcl31.first 0) rfl DeleteAclsMatchingAcl31.partsK DeleteAclsMatchingAcl31.part_of DeleteAclsMatchingAcl31.filled (by decide) (by decide)

/-- message/messages.gen.go:8315-8339 `DeleteAclsFilterResult31.Decode`, with the receiver kept -/
def DeleteAclsFilterResult31.decodeK (version : Int16) : KDec DeleteAclsFilterResult31 :=
    KDec.field Dec.int16 0 (fun t x => { t with ErrorCode := x }) ;|>
    KDec.field Dec.string [] (fun t x => { t with ErrorMessage := x }) ;|>
    KDec.fieldStructs (DeleteAclsMatchingAcl31.decodeK version {}) {} (fun t x => { t with MatchingAcls := x })

/-- Where the fields of `DeleteAclsFilterResult31` end. -/
def DeleteAclsFilterResult31.ends (version : Int16) (t : DeleteAclsFilterResult31) : Nat → Nat :=
  Cut.ends 0 [Wire.int16 t.ErrorCode,
    Wire.string t.ErrorMessage,
    Wire.array (DeleteAclsMatchingAcl31.wire version) t.MatchingAcls]

/-- What is left of `t` if only its first `n` bytes are there. -/
def DeleteAclsFilterResult31.cut (version : Int16) (n : Nat) (t : DeleteAclsFilterResult31) : DeleteAclsFilterResult31 :=
  { ErrorCode := Cut.field n (t.ends version 0) t.ErrorCode 0,
    ErrorMessage := Cut.field n (t.ends version 1) t.ErrorMessage [],
    MatchingAcls := Cut.array n (t.ends version 1) (DeleteAclsMatchingAcl31.wire version) (fun x => x.seen version {}) {} t.MatchingAcls }

/-- The same after the first `k` statements of `Decode`. -/
def DeleteAclsFilterResult31.cutAt (version : Int16) (t : DeleteAclsFilterResult31) (k n : Nat) : DeleteAclsFilterResult31 :=
  { ErrorCode := upto k 0 (Cut.field n (t.ends version 0) t.ErrorCode 0) 0,
    ErrorMessage := upto k 1 (Cut.field n (t.ends version 1) t.ErrorMessage []) [],
    MatchingAcls := upto k 2 (Cut.array n (t.ends version 1) (DeleteAclsMatchingAcl31.wire version) (fun x => x.seen version {}) {} t.MatchingAcls) none }

/-- The first `k` fields of `y`, and zeros. -/
def DeleteAclsFilterResult31.first (k : Nat) (y : DeleteAclsFilterResult31) : DeleteAclsFilterResult31 :=
  { ErrorCode := upto k 0 y.ErrorCode 0,
    ErrorMessage := upto k 1 y.ErrorMessage [],
    MatchingAcls := upto k 2 y.MatchingAcls none }

/-- `r` is a beginning of `y`, and zeros. -/
def DeleteAclsFilterResult31.Part (r y : DeleteAclsFilterResult31) : Prop :=
  (∃ k, k < 3 ∧ r = y.first k) ∨
    Cut.begun {} (fun t => t.MatchingAcls) (fun t x => { t with MatchingAcls := x }) (DeleteAclsFilterResult31.first 2) r y

/-- `DeleteAclsFilterResult31` with its receiver kept. -/
def DeleteAclsFilterResult31.keeps : KeptMsg DeleteAclsFilterResult31.type := { decode := DeleteAclsFilterResult31.decodeK, cut := DeleteAclsFilterResult31.cut, Part := DeleteAclsFilterResult31.Part }

theorem DeleteAclsFilterResult31.sameK (version : Int16) : KStep (DeleteAclsFilterResult31.decodeK version) (DeleteAclsFilterResult31.decode version) :=
  (KStep.field)
    |>.andThen (KStep.field)
    |>.andThen (KStep.structs (fun _ => rfl) (DeleteAclsMatchingAcl31.sameK version {}))
theorem DeleteAclsFilterResult31.cutsK (version : Int16) (t : DeleteAclsFilterResult31) (h : t.Fits version) :
    Cuts (DeleteAclsFilterResult31.decodeK version) 0 (DeleteAclsFilterResult31.wire version t) (DeleteAclsFilterResult31.ends version t 2) (DeleteAclsFilterResult31.cutAt version t 0) (DeleteAclsFilterResult31.cutAt version t 3) :=
  (.field (reads_int16 t.ErrorCode) (fun _ => rfl) (fun _ => rfl) : Cuts _ 0 _ (DeleteAclsFilterResult31.ends version t 0) (DeleteAclsFilterResult31.cutAt version t 0) (DeleteAclsFilterResult31.cutAt version t 1))
    |>.andThen (.field (reads_string h.ErrorMessage) (fun _ => rfl) (fun _ => rfl) : Cuts _ (DeleteAclsFilterResult31.ends version t 0) _ (DeleteAclsFilterResult31.ends version t 1) (DeleteAclsFilterResult31.cutAt version t 1) (DeleteAclsFilterResult31.cutAt version t 2))
    |>.andThen (.structs (DeleteAclsMatchingAcl31.sameK version {}) (fun x hx => DeleteAclsMatchingAcl31.reads version x hx {}) h.MatchingAcls (fun _ => rfl) (fun _ => rfl) : Cuts _ (DeleteAclsFilterResult31.ends version t 1) _ (DeleteAclsFilterResult31.ends version t 2) (DeleteAclsFilterResult31.cutAt version t 2) (DeleteAclsFilterResult31.cutAt version t 3))
theorem DeleteAclsFilterResult31.partsK (version : Int16) : Parts (DeleteAclsFilterResult31.decodeK version) (DeleteAclsFilterResult31.first 0) (DeleteAclsFilterResult31.first 3) (fun r y => (((r = DeleteAclsFilterResult31.first 0 y) ∨ (r = DeleteAclsFilterResult31.first 1 y)) ∨ (r = DeleteAclsFilterResult31.first 2 y ∨ Cut.begun {} (fun t => t.MatchingAcls) (fun t x => { t with MatchingAcls := x }) (DeleteAclsFilterResult31.first 2) r y))) :=
  (.field Longer.int16 (fun _ => rfl) (fun _ _ => rfl) (fun _ _ => rfl) (fun _ => rfl) : Parts (KDec.field Dec.int16 0 (fun t x => { t with ErrorCode := x })) (DeleteAclsFilterResult31.first 0) (DeleteAclsFilterResult31.first 1) (fun r y => r = DeleteAclsFilterResult31.first 0 y))
    |>.andThen (.field Longer.string (fun _ => rfl) (fun _ _ => rfl) (fun _ _ => rfl) (fun _ => rfl) : Parts (KDec.field Dec.string [] (fun t x => { t with ErrorMessage := x })) (DeleteAclsFilterResult31.first 1) (DeleteAclsFilterResult31.first 2) (fun r y => r = DeleteAclsFilterResult31.first 1 y))
    |>.andThen (.structs (get := fun (t : DeleteAclsFilterResult31) => t.MatchingAcls) ((DeleteAclsMatchingAcl31.partsK version).longer {}) (fun _ => rfl) (fun _ => rfl) (fun _ _ => rfl) (fun _ _ => rfl) (fun _ _ => rfl) (fun _ => rfl) (fun _ => rfl) : Parts (KDec.fieldStructs (DeleteAclsMatchingAcl31.decodeK version {}) {} (fun t x => { t with MatchingAcls := x })) (DeleteAclsFilterResult31.first 2) (DeleteAclsFilterResult31.first 3) (fun r y => r = DeleteAclsFilterResult31.first 2 y ∨ Cut.begun {} (fun t => t.MatchingAcls) (fun t x => { t with MatchingAcls := x }) (DeleteAclsFilterResult31.first 2) r y))
theorem DeleteAclsFilterResult31.filled (version : Int16) : FilledStep 8 30064803856 (DeleteAclsFilterResult31.decode version) :=
  ((FilledStep.field .int16)
    |>.andThen (FilledStep.field .string)
    |>.andThen (FilledStep.structs (DeleteAclsMatchingAcl31.filled version {}))).mono (by decide) (by decide)
theorem DeleteAclsFilterResult31.part_of (r y : DeleteAclsFilterResult31) (h : (((r = DeleteAclsFilterResult31.first 0 y) ∨ (r = DeleteAclsFilterResult31.first 1 y)) ∨ (r = DeleteAclsFilterResult31.first 2 y ∨ Cut.begun {} (fun t => t.MatchingAcls) (fun t x => { t with MatchingAcls := x }) (DeleteAclsFilterResult31.first 2) r y))) : DeleteAclsFilterResult31.Part r y :=
  match h with
    | (.inl (.inl h)) => .inl ⟨0, by decide, h⟩
    | (.inl (.inr h)) => .inl ⟨1, by decide, h⟩
    | (.inr (.inl h)) => .inl ⟨2, by decide, h⟩
    | (.inr (.inr h)) => (.inr h)
theorem DeleteAclsFilterResult31.keeps_holds : DeleteAclsFilterResult31.keeps.Holds DeleteAclsFilterResult31.layout :=
  KeptMsg.holds DeleteAclsFilterResult31.lawful DeleteAclsFilterResult31.sameK (stop := fun v t => DeleteAclsFilterResult31.ends v t 2) (c := fun v t => DeleteAclsFilterResult31.cutAt v t 0) (fun _ _ _ => rfl) DeleteAclsFilterResult31.cutsK (c0 := DeleteAclsFilterResult31.first 0) rfl DeleteAclsFilterResult31.partsK DeleteAclsFilterResult31.part_of DeleteAclsFilterResult31.filled (by decide) (by decide)

/-- message/messages.gen.go:8262-8282 `DeleteAclsResponse.Decode`, with the receiver kept -/
def DeleteAclsResponse.decodeK (version : Int16) : KDec DeleteAclsResponse :=
    KDec.field Dec.int32 0 (fun t x => { t with ThrottleTimeMs := x }) ;|>
    KDec.fieldStructs (DeleteAclsFilterResult31.decodeK version {}) {} (fun t x => { t with FilterResults := x })

/-- Where the fields of `DeleteAclsResponse` end. -/
def DeleteAclsResponse.ends (version : Int16) (t : DeleteAclsResponse) : Nat → Nat :=
  Cut.ends 0 [Wire.int32 t.ThrottleTimeMs,
    Wire.array (DeleteAclsFilterResult31.wire version) t.FilterResults]

/-- What is left of `t` if only its first `n` bytes are there. -/
def DeleteAclsResponse.cut (version : Int16) (n : Nat) (t : DeleteAclsResponse) : DeleteAclsResponse :=
  { ThrottleTimeMs := Cut.field n (t.ends version 0) t.ThrottleTimeMs 0,
    FilterResults := Cut.array n (t.ends version 0) (DeleteAclsFilterResult31.wire version) (fun x => x.seen version {}) {} t.FilterResults }

/-- The same after the first `k` statements of `Decode`. -/
def DeleteAclsResponse.cutAt (version : Int16) (t : DeleteAclsResponse) (k n : Nat) : DeleteAclsResponse :=
  { ThrottleTimeMs := upto k 0 (Cut.field n (t.ends version 0) t.ThrottleTimeMs 0) 0,
    FilterResults := upto k 1 (Cut.array n (t.ends version 0) (DeleteAclsFilterResult31.wire version) (fun x => x.seen version {}) {} t.FilterResults) none }

/-- The first `k` fields of `y`, and zeros. -/
def DeleteAclsResponse.first (k : Nat) (y : DeleteAclsResponse) : DeleteAclsResponse :=
  { ThrottleTimeMs := upto k 0 y.ThrottleTimeMs 0,
    FilterResults := upto k 1 y.FilterResults none }

/-- `r` is a beginning of `y`, and zeros. -/
def DeleteAclsResponse.Part (r y : DeleteAclsResponse) : Prop :=
  (∃ k, k < 2 ∧ r = y.first k) ∨
    Cut.begun {} (fun t => t.FilterResults) (fun t x => { t with FilterResults := x }) (DeleteAclsResponse.first 1) r y

/-- `DeleteAclsResponse` with its receiver kept. -/
def DeleteAclsResponse.keeps : KeptMsg DeleteAclsResponse.type := { decode := DeleteAclsResponse.decodeK, cut := DeleteAclsResponse.cut, Part := DeleteAclsResponse.Part }

theorem DeleteAclsResponse.sameK (version : Int16) : KStep (DeleteAclsResponse.decodeK version) (DeleteAclsResponse.decode version) :=
  (KStep.field)
    |>.andThen (KStep.structs (fun _ => rfl) (DeleteAclsFilterResult31.sameK version {}))
theorem DeleteAclsResponse.cutsK (version : Int16) (t : DeleteAclsResponse) (h : t.Fits version) :
    Cuts (DeleteAclsResponse.decodeK version) 0 (DeleteAclsResponse.wire version t) (DeleteAclsResponse.ends version t 1) (DeleteAclsResponse.cutAt version t 0) (DeleteAclsResponse.cutAt version t 2) :=
  (.field (reads_int32 t.ThrottleTimeMs) (fun _ => rfl) (fun _ => rfl) : Cuts _ 0 _ (DeleteAclsResponse.ends version t 0) (DeleteAclsResponse.cutAt version t 0) (DeleteAclsResponse.cutAt version t 1))
    |>.andThen (.structs (DeleteAclsFilterResult31.sameK version {}) (fun x hx => DeleteAclsFilterResult31.reads version x hx {}) h.FilterResults (fun _ => rfl) (fun _ => rfl) : Cuts _ (DeleteAclsResponse.ends version t 0) _ (DeleteAclsResponse.ends version t 1) (DeleteAclsResponse.cutAt version t 1) (DeleteAclsResponse.cutAt version t 2))
theorem DeleteAclsResponse.partsK (version : Int16) : Parts (DeleteAclsResponse.decodeK version) (DeleteAclsResponse.first 0) (DeleteAclsResponse.first 2) (fun r y => ((r = DeleteAclsResponse.first 0 y) ∨ (r = DeleteAclsResponse.first 1 y ∨ Cut.begun {} (fun t => t.FilterResults) (fun t x => { t with FilterResults := x }) (DeleteAclsResponse.first 1) r y))) :=
  (.field Longer.int32 (fun _ => rfl) (fun _ _ => rfl) (fun _ _ => rfl) (fun _ => rfl) : Parts (KDec.field Dec.int32 0 (fun t x => { t with ThrottleTimeMs := x })) (DeleteAclsResponse.first 0) (DeleteAclsResponse.first 1) (fun r y => r = DeleteAclsResponse.first 0 y))
    |>.andThen (.structs (get := fun (t : DeleteAclsResponse) => t.FilterResults) ((DeleteAclsFilterResult31.partsK version).longer {}) (fun _ => rfl) (fun _ => rfl) (fun _ _ => rfl) (fun _ _ => rfl) (fun _ _ => rfl) (fun _ => rfl) (fun _ => rfl) : Parts (KDec.fieldStructs (DeleteAclsFilterResult31.decodeK version {}) {} (fun t x => { t with FilterResults := x })) (DeleteAclsResponse.first 1) (DeleteAclsResponse.first 2) (fun r y => r = DeleteAclsResponse.first 1 y ∨ Cut.begun {} (fun t => t.FilterResults) (fun t x => { t with FilterResults := x }) (DeleteAclsResponse.first 1) r y))
theorem DeleteAclsResponse.filled (version : Int16) : FilledStep 8 47244673044 (DeleteAclsResponse.decode version) :=
  ((FilledStep.field .int32)
    |>.andThen (FilledStep.structs (DeleteAclsFilterResult31.filled version {}))).mono (by decide) (by decide)
theorem DeleteAclsResponse.part_of (r y : DeleteAclsResponse) (h : ((r = DeleteAclsResponse.first 0 y) ∨ (r = DeleteAclsResponse.first 1 y ∨ Cut.begun {} (fun t => t.FilterResults) (fun t x => { t with FilterResults := x }) (DeleteAclsResponse.first 1) r y))) : DeleteAclsResponse.Part r y :=
  match h with
    | (.inl h) => .inl ⟨0, by decide, h⟩
    | (.inr (.inl h)) => .inl ⟨1, by decide, h⟩
    | (.inr (.inr h)) => (.inr h)
theorem DeleteAclsResponse.keeps_holds : DeleteAclsResponse.keeps.Holds DeleteAclsResponse.layout :=
  KeptMsg.holds DeleteAclsResponse.lawful DeleteAclsResponse.sameK (stop := fun v t => DeleteAclsResponse.ends v t 1) (c := fun v t => DeleteAclsResponse.cutAt v t 0) (fun _ _ _ => rfl) DeleteAclsResponse.cutsK (c0 := DeleteAclsResponse.first 0) rfl DeleteAclsResponse.partsK DeleteAclsResponse.part_of DeleteAclsResponse.filled (by decide) (by decide)

/-- The structures of the DeleteAcls messages. -/
def keptDeleteAcls : List (Σ (M : MsgType) (_ : Layout M), KeptMsg M) :=
  [⟨DeleteAclsRequest.type, DeleteAclsRequest.layout, DeleteAclsRequest.keeps⟩,
   ⟨DeleteAclsFilter31.type, DeleteAclsFilter31.layout, DeleteAclsFilter31.keeps⟩,
   ⟨DeleteAclsResponse.type, DeleteAclsResponse.layout, DeleteAclsResponse.keeps⟩,
   ⟨DeleteAclsFilterResult31.type, DeleteAclsFilterResult31.layout, DeleteAclsFilterResult31.keeps⟩,
   ⟨DeleteAclsMatchingAcl31.type, DeleteAclsMatchingAcl31.layout, DeleteAclsMatchingAcl31.keeps⟩]
theorem keptDeleteAcls_holds : ∀ p ∈ keptDeleteAcls, p.2.2.Holds p.2.1 := by
  unfold keptDeleteAcls
  simp only [List.forall_mem_cons]
  exact ⟨DeleteAclsRequest.keeps_holds, DeleteAclsFilter31.keeps_holds, DeleteAclsResponse.keeps_holds, DeleteAclsFilterResult31.keeps_holds, DeleteAclsMatchingAcl31.keeps_holds, fun _ h => absurd h (by simp)⟩

end Kafka.Msg
